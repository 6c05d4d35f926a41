import Verif.Proofs.TestSteps

/-!
# The tests pass

Every test of `/repo`, as written in `Verif.Model.Tests`, runs to its end without failing, whatever the random numbers are.
-/

set_option autoImplicit false

namespace SVB.Tests
open SVB.Spec SVB.Props

/-! ## Running a piece of a test -/

/-- The piece comes to its end (it does not end the test early), with a result, state and memory as described. -/
def Runs {α : Type} (x : M α) (s : St) (m : Mem) (Q : α → St → Mem → Prop) : Prop :=
  ∃ a s' m', Q a s' m' ∧ ∀ e k, run (x e k s) m = run (k a s') m'

theorem Runs.bind {α β : Type} {x : M α} {f : α → M β} {s : St} {m : Mem} {P : α → St → Mem → Prop} {Q : β → St → Mem → Prop}
    (h : Runs x s m P) (hf : ∀ a s' m', P a s' m' → Runs (f a) s' m' Q) : Runs (x >>= f) s m Q := by
  obtain ⟨a, s', m', hp, hr⟩ := h
  obtain ⟨b, s'', m'', hq, hr'⟩ := hf a s' m' hp
  exact ⟨b, s'', m'', hq, fun e k => (hr e _).trans (hr' e k)⟩

theorem Runs.mono {α : Type} {x : M α} {s : St} {m : Mem} {P Q : α → St → Mem → Prop}
    (h : Runs x s m P) (hf : ∀ a s' m', P a s' m' → Q a s' m') : Runs x s m Q := by
  obtain ⟨a, s', m', hp, hr⟩ := h
  exact ⟨a, s', m', hf _ _ _ hp, hr⟩

theorem Runs.pure {α : Type} {a : α} {s : St} {m : Mem} {Q : α → St → Mem → Prop} (h : Q a s m) : Runs (pure a) s m Q :=
  ⟨a, s, m, h, fun _ _ => rfl⟩

section
variable {α β : Type} {d n : Nat} {fl sk : Bool} {bs : Int} {sn : Env} {m m' : Mem} {Q : β → St → Mem → Prop}

theorem Runs.call {p : Prog α} {f : α → M β} {a : α} (r : run p m = (.ok a, m')) (h : Runs (f a) ⟨d, n, fl, sk, bs, sn⟩ m' Q) :
    Runs (call p >>= f) ⟨d, n, fl, sk, bs, sn⟩ m Q := by
  obtain ⟨b, s'', m'', hq, hr'⟩ := h
  refine ⟨b, s'', m'', hq, fun e k => ?_⟩
  show run (p.bind _) m = _
  rw [run_bind, r]
  exact hr' e k

theorem Runs.alloc {p : Block → Prog α} {f : α → M β} {a : α} (r : run (p (.heap n)) m = (.ok a, m'))
    (h : Runs (f a) ⟨d, n + 1, fl, sk, bs, sn⟩ m' Q) : Runs (alloc p >>= f) ⟨d, n, fl, sk, bs, sn⟩ m Q := by
  obtain ⟨b, s'', m'', hq, hr'⟩ := h
  refine ⟨b, s'', m'', hq, fun e k => ?_⟩
  show run ((p (.heap n)).bind _) m = _
  rw [run_bind, r]
  exact hr' e k

theorem Runs.makeB {i : Int} {f : Bytes → M β} {a : Bytes} (r : run (makeBytes (.heap n) i) m = (.ok a, m'))
    (h : Runs (f a) ⟨d, n + 1, fl, sk, bs, sn⟩ m' Q) : Runs (makeB i >>= f) ⟨d, n, fl, sk, bs, sn⟩ m Q := Runs.alloc r h

theorem Runs.makeW {i : Int} {f : U32s → M β} {a : U32s} (r : run (makeWords (.heap n) i) m = (.ok a, m'))
    (h : Runs (f a) ⟨d, n + 1, fl, sk, bs, sn⟩ m' Q) : Runs (makeW i >>= f) ⟨d, n, fl, sk, bs, sn⟩ m Q := Runs.alloc r h

theorem Runs.upto {e : Nat} {s t : Slice e} {i : Int} {f : Slice e → M β} (r : run (s.range 0 i) m = (.ok t, m'))
    (h : Runs (f t) ⟨d, n, fl, sk, bs, sn⟩ m' Q) : Runs (upto s i >>= f) ⟨d, n, fl, sk, bs, sn⟩ m Q := Runs.call r h

theorem Runs.gen {W : World} {i : Int} {f : U32s → M β} {a : U32s} (r : run (genWords W d i (.heap n)) m = (.ok a, m'))
    (h : Runs (f a) ⟨d + 2 * i.toNat, n + 1, fl, sk, bs, sn⟩ m' Q) : Runs (gen W i >>= f) ⟨d, n, fl, sk, bs, sn⟩ m Q := by
  obtain ⟨b, s'', m'', hq, hr'⟩ := h
  refine ⟨b, s'', m'', hq, fun e k => ?_⟩
  show run ((genWords W d i (.heap n)).bind _) m = _
  rw [run_bind, r]
  exact hr' e k

theorem Runs.randIntn {W : World} {l : Nat} {f : Int → M β}
    (h : Runs (f (W.intn d l)) ⟨d + 1, n, fl, sk, bs, sn⟩ m Q) : Runs (randIntn W l >>= f) ⟨d, n, fl, sk, bs, sn⟩ m Q := h

theorem Runs.randCount {W : World} {f : Int → M β}
    (h : ∀ c : Nat, c < 1000000 → Runs (f c) ⟨d + 2, n, fl, sk, bs, sn⟩ m Q) : Runs (randCount W >>= f) ⟨d, n, fl, sk, bs, sn⟩ m Q :=
  h (W.rand d % 1000000#32).toNat (by
    rw [BitVec.toNat_umod]
    exact Nat.mod_lt _ (by decide))

theorem Runs.failIf {b : Bool} {f : Unit → M β} (hb : b = false) (h : Runs (f ()) ⟨d, n, fl, sk, bs, sn⟩ m Q) :
    Runs (failIf b >>= f) ⟨d, n, fl, sk, bs, sn⟩ m Q := by subst hb; exact h

theorem Runs.skipIf {b : Bool} {f : Unit → M β} (hb : b = false) (h : Runs (f ()) ⟨d, n, fl, sk, bs, sn⟩ m Q) :
    Runs (skipIf b >>= f) ⟨d, n, fl, sk, bs, sn⟩ m Q := by subst hb; exact h

end

/-- How a test ends if nothing goes wrong. -/
def Good (s : St) (_ : Unit) (s' : St) (m' : Mem) : Prop :=
  s'.failed = s.failed ∧ s'.skipped = s.skipped ∧ TablesLoaded m'

theorem Runs.fail_last {b : Bool} {s s0 : St} {m : Mem} (hb : b = false) (h : s.failed = s0.failed) (h' : s.skipped = s0.skipped)
    (hT : TablesLoaded m) : Runs (Tests.failIf b) s m (Good s0) := by
  subst hb
  exact ⟨(), s, m, ⟨h, h', hT⟩, fun _ _ => rfl⟩

theorem Runs.subtest {x : M Unit} {s : St} {m : Mem} {Q : Unit → St → Mem → Prop} (h : Runs x s m Q) :
    Runs (Tests.subtest x) s m Q := by
  obtain ⟨a, s', m', hq, hr⟩ := h
  exact ⟨a, s', m', hq, fun e k => hr _ _⟩

/-- The test passes, from every state and memory (with the tables in place). -/
def Passes (x : M Unit) : Prop := ∀ s m, TablesLoaded m → Runs x s m (Good s)

theorem Passes.times {x : M Unit} (h : Passes x) (n : Nat) : Passes (times n x) := by
  induction n with
  | zero => exact fun s m hT => .pure ⟨rfl, rfl, hT⟩
  | succ n ih =>
    intro s m hT
    refine (h s m hT).bind fun _ s' m' hg => (ih s' m' hg.2.2).mono fun _ _ _ hg' => ?_
    exact ⟨hg'.1.trans hg.1, hg'.2.1.trans hg.2.1, hg'.2.2⟩

local macro "ne!" : term => `(by intro h; injection h; omega)

theorem encode_amd64 {c : Cpu} (h : encodeMode c ≠ .normal) {α : Type} (p : Prog α) : onAmd64 c p = p := by
  rcases c with ⟨a, b, d⟩
  cases a
  · exact absurd rfl h
  · rfl

theorem decode_amd64 {c : Cpu} (h : decodeMode c ≠ .normal) {α : Type} (p : Prog α) : onAmd64 c p = p := by
  rcases c with ⟨a, b, d⟩
  cases a
  · exact absurd rfl h
  · rfl

/-! ## The tests with fixed numbers -/

theorem ctrl_fixed : ctrl16 [1024, 3, 2, 1, 1073741824, 10, 12, 1024] = 0b0100001100000001#16 := by decide +kernel

theorem data_fixed : dataBytes [1024, 3, 2, 1, 1073741824, 10, 12, 1024] =
    [0x00, 0x04, 0x03, 0x02, 0x01, 0x00, 0x00, 0x00, 0x40, 0x0a, 0x0c, 0x00, 0x04] := by decide +kernel

theorem put8Scalar_passes : Passes put8Scalar := by
  rintro ⟨d, n, fl, sk, bs, sn⟩ m hT
  obtain ⟨m1, r1, f1, w1⟩ := litWords_run (.heap n) m [1024, 3, 2, 1, 1073741824, 10, 12, 1024]
  obtain ⟨m2, r2, f2, b2⟩ := litBytes_run (.heap (n + 1)) m1
    [0x00, 0x04, 0x03, 0x02, 0x01, 0x00, 0x00, 0x00, 0x40, 0x0a, 0x0c, 0x00, 0x04]
  obtain ⟨m3, r3, f3⟩ := makeBytes_run (.heap (n + 1 + 1)) m2 (i := 32) 32 rfl
  have hT3 := f3.tables (f2.tables (f1.tables hT))
  obtain ⟨m4, r4, f4, b4⟩ := put8_run .scalar (inn := ⟨.heap n, 0, 8, 8⟩) (k := n + 1 + 1) hT3 ne! rfl
  have w3 : wordsOf m3 ⟨.heap n, 0, 8, 8⟩ = [1024, 3, 2, 1, 1073741824, 10, 12, 1024] := by
    rw [wordsOf_eq, f3.words ne!, f2.words ne!]; exact w1
  rw [w3, ctrl_fixed] at r4
  rw [w3, data_fixed] at b4
  refine .alloc r1 (.alloc r2 (.makeB r3 (.call r4 (.failIf (by rfl) (.upto (upto_run m4 13 rfl (by show 13 ≤ 32; decide)) (.call
    (deepEqualB_run ?_) (.fail_last rfl rfl rfl (f4.tables hT3))))))))
  exact (((f4.bytes ne!).trans (f3.bytes ne!)).trans b2).trans b4.symm

theorem roundTripScalar_passes : Passes roundTripScalar := by
  rintro ⟨d, n, fl, sk, bs, sn⟩ m hT
  obtain ⟨m1, r1, f1, w1⟩ := litWords_run (.heap n) m [1024, 3, 2, 1, 1073741824, 10, 12, 1024]
  obtain ⟨m2, r2, f2, b2⟩ := litBytes_run (.heap (n + 1)) m1
    [0x00, 0x04, 0x03, 0x02, 0x01, 0x00, 0x00, 0x00, 0x40, 0x0a, 0x0c, 0x00, 0x04]
  obtain ⟨m3, r3, f3⟩ := makeBytes_run (.heap (n + 1 + 1)) m2 (i := 32) 32 rfl
  have hT3 := f3.tables (f2.tables (f1.tables hT))
  obtain ⟨m4, r4, f4, b4⟩ := put8_run .scalar (inn := ⟨.heap n, 0, 8, 8⟩) (k := n + 1 + 1) hT3 ne! rfl
  have w3 : wordsOf m3 ⟨.heap n, 0, 8, 8⟩ = [1024, 3, 2, 1, 1073741824, 10, 12, 1024] := by
    rw [wordsOf_eq, f3.words ne!, f2.words ne!]; exact w1
  rw [w3, ctrl_fixed] at r4
  rw [w3] at b4
  have b4' := b4
  rw [data_fixed] at b4'
  have hT4 := f4.tables hT3
  obtain ⟨m5, r5, f5⟩ := makeWords_run (.heap (n + 1 + 1 + 1)) m4 (i := 8) 8 rfl
  obtain ⟨m6, r6, f6, w6⟩ := get8_run .scalar (inn := ⟨.heap (n + 1 + 1), 0, 13, 32⟩) (k := n + 1 + 1 + 1)
    (f5.tables hT4) ne! (xs := [1024, 3, 2, 1, 1073741824, 10, 12, 1024]) rfl (by
      rw [f5.bytes ne!]
      exact take_of_prefix (by rw [data_fixed]; decide) b4)
  rw [ctrl_fixed] at r6
  refine .alloc r1 (.alloc r2 (.makeB r3 (.call r4 (.failIf (by rfl) (.upto (upto_run m4 13 rfl (by show 13 ≤ 32; decide)) (.call
    (deepEqualB_run ?_) (.failIf rfl (.makeW r5 (.call r6 (.call (deepEqualW_run ?_)
      (.fail_last rfl rfl rfl (f6.tables (f5.tables hT4)))))))))))))
  · exact (((f4.bytes ne!).trans (f3.bytes ne!)).trans b2).trans b4'.symm
  · rw [wordsOf_eq, f6.words ne!, f5.words ne!, f4.words ne!]
    exact w3.trans w6.symm

/-! ## Blocks of eight -/

theorem put8DeltaScalar_passes {W : World} (hW : W.Ok) : Passes (put8DeltaScalar W) := by
  rintro ⟨d, n, fl, sk, bs, sn⟩ m hT
  obtain ⟨m1, r1, f1, -⟩ := genWords_run W d (.heap n) m (i := 8) 8 rfl
  obtain ⟨m2, r2, f2, -⟩ := sortWords_run hW ⟨.heap n, 0, 8, 8⟩ m1
  obtain ⟨m3, r3, f3⟩ := makeWords_run (.heap (n + 1)) m2 (i := 8) 8 rfl
  obtain ⟨m4, r4, f4, w4⟩ := utilDelta_run (inn := ⟨.heap n, 0, 8, 8⟩) (out := ⟨.heap (n + 1), 0, 8, 8⟩) m3 ne! rfl
  obtain ⟨m5, r5, f5⟩ := makeBytes_run (.heap (n + 1 + 1)) m4 (i := 32) 32 rfl
  have hT5 := f5.tables (Same.tables f4 (f3.tables (Same.tables f2 (f1.tables hT))))
  obtain ⟨m6, r6, f6, b6⟩ := put8_run .scalar (inn := ⟨.heap (n + 1), 0, 8, 8⟩) (k := n + 1 + 1) hT5 ne! rfl
  obtain ⟨m7, r7, f7⟩ := makeBytes_run (.heap (n + 1 + 1 + 1)) m6 (i := 32) 32 rfl
  have hT6 := f6.tables hT5
  have hT7 := f7.tables hT6
  obtain ⟨m8, r8, f8, b8⟩ := put8Delta_run .scalar (inn := ⟨.heap n, 0, 8, 8⟩) (k := n + 1 + 1 + 1) hT7 ne! rfl 0
  have hT8 := f8.tables hT7
  have e1 : wordsOf m5 ⟨.heap (n + 1), 0, 8, 8⟩ = delta 0 (wordsOf m3 ⟨.heap n, 0, 8, 8⟩) := by
    rw [wordsOf_eq, f5.words ne!]; exact w4
  have e2 : wordsOf m7 ⟨.heap n, 0, 8, 8⟩ = wordsOf m3 ⟨.heap n, 0, 8, 8⟩ := by
    rw [wordsOf_eq, f7.words ne!, f6.words ne!, f5.words ne!, Same.words f4 ne!]; rfl
  rw [e1] at r6 b6
  rw [e2] at r8 b8
  have hl : (delta 0 (wordsOf m3 ⟨.heap n, 0, 8, 8⟩)).length = 8 := by rw [delta_length, wordsOf_length]
  obtain ⟨s6, l6⟩ := sizeTwo_run hT6 hl
  obtain ⟨s8, -⟩ := sizeTwo_run hT8 hl
  refine .gen r1 (.call r2 (.makeW r3 (.call r4 (.makeB r5 (.call r6 (.call s6 (.upto (upto_run m6 _ rfl l6) (.makeB r7
    (.call r8 (.failIf (by simp) (.call s8 (.upto (upto_run m8 _ rfl l6) (.call (deepEqualB_run ?_)
      (.fail_last rfl rfl rfl hT8))))))))))))))
  exact (((f8.bytes ne!).trans (f7.bytes ne!)).trans b6).trans b8.symm

theorem put8Fast_passes {W : World} (hm : encodeMode W.cpu ≠ .normal) : Passes (put8Fast W) := by
  rintro ⟨d, n, fl, sk, bs, sn⟩ m hT
  obtain ⟨m1, r1, f1, -⟩ := genWords_run W d (.heap n) m (i := 8) 8 rfl
  obtain ⟨m2, r2, f2⟩ := makeBytes_run (.heap (n + 1)) m1 (i := 32) 32 rfl
  have hT2 := f2.tables (f1.tables hT)
  obtain ⟨m3, r3, f3, b3⟩ := put8_run .scalar (inn := ⟨.heap n, 0, 8, 8⟩) (k := n + 1) hT2 ne! rfl
  have hT3 := f3.tables hT2
  obtain ⟨m4, r4, f4⟩ := makeBytes_run (.heap (n + 1 + 1)) m3 (i := 32) 32 rfl
  have hT4 := f4.tables hT3
  obtain ⟨m5, r5, f5, b5⟩ := put8_run .fast (inn := ⟨.heap n, 0, 8, 8⟩) (k := n + 1 + 1) hT4 ne! rfl
  have hT5 := f5.tables hT4
  have e : wordsOf m4 ⟨.heap n, 0, 8, 8⟩ = wordsOf m2 ⟨.heap n, 0, 8, 8⟩ := by
    rw [wordsOf_eq, f4.words ne!, f3.words ne!]; rfl
  rw [e] at r5 b5
  obtain ⟨s3, l3⟩ := sizeTwo_run hT3 (wordsOf_length m2 ⟨.heap n, 0, 8, 8⟩)
  obtain ⟨s5, -⟩ := sizeTwo_run hT5 (wordsOf_length m2 ⟨.heap n, 0, 8, 8⟩)
  refine .skipIf (decide_eq_false hm) (.gen r1 (.makeB r2 (.call r3 (.call s3 (.upto (upto_run m3 _ rfl l3) (.makeB r4
    (.call ((congrArg (run · m4) (encode_amd64 hm _)).trans r5) (.call s5 (.upto (upto_run m5 _ rfl l3) (.failIf (by simp)
      (.call (deepEqualB_run ?_) (.fail_last rfl rfl rfl hT5))))))))))))
  exact (((f5.bytes ne!).trans (f4.bytes ne!)).trans b3).trans b5.symm

theorem put8DeltaFast_passes {W : World} (hW : W.Ok) (hm : encodeMode W.cpu ≠ .normal) : Passes (put8DeltaFast W) := by
  rintro ⟨d, n, fl, sk, bs, sn⟩ m hT
  obtain ⟨m0, r0, f0, -⟩ := genWords_run W d (.heap n) m (i := 8) 8 rfl
  obtain ⟨m1, r1, f1, -⟩ := sortWords_run hW ⟨.heap n, 0, 8, 8⟩ m0
  obtain ⟨m2, r2, f2⟩ := makeBytes_run (.heap (n + 1)) m1 (i := 32) 32 rfl
  have hT2 := f2.tables (Same.tables f1 (f0.tables hT))
  obtain ⟨m3, r3, f3, b3⟩ := put8Delta_run .scalar (inn := ⟨.heap n, 0, 8, 8⟩) (k := n + 1) hT2 ne! rfl 0
  have hT3 := f3.tables hT2
  obtain ⟨m4, r4, f4⟩ := makeBytes_run (.heap (n + 1 + 1)) m3 (i := 32) 32 rfl
  have hT4 := f4.tables hT3
  obtain ⟨m5, r5, f5, b5⟩ := put8Delta_run .fast (inn := ⟨.heap n, 0, 8, 8⟩) (k := n + 1 + 1) hT4 ne! rfl 0
  have hT5 := f5.tables hT4
  have e : wordsOf m4 ⟨.heap n, 0, 8, 8⟩ = wordsOf m2 ⟨.heap n, 0, 8, 8⟩ := by
    rw [wordsOf_eq, f4.words ne!, f3.words ne!]; rfl
  rw [e] at r5 b5
  have hl : (delta 0 (wordsOf m2 ⟨.heap n, 0, 8, 8⟩)).length = 8 := by rw [delta_length, wordsOf_length]
  obtain ⟨s3, l3⟩ := sizeTwo_run hT3 hl
  obtain ⟨s5, -⟩ := sizeTwo_run hT5 hl
  refine .skipIf (decide_eq_false hm) (.gen r0 (.call r1 (.makeB r2 (.call r3 (.call s3 (.upto (upto_run m3 _ rfl l3) (.makeB r4
    (.call ((congrArg (run · m4) (encode_amd64 hm _)).trans r5) (.call s5 (.upto (upto_run m5 _ rfl l3) (.failIf (by simp)
      (.call (deepEqualB_run ?_) (.fail_last rfl rfl rfl hT5)))))))))))))
  exact (((f5.bytes ne!).trans (f4.bytes ne!)).trans b3).trans b5.symm

/-- The common part of the four tests of decoding eight numbers. -/
theorem get8_back {n : Nat} {m2 m3 m4 m5 : Mem} {xs : List U32} (f3 : Same (.heap (n + 1)) m2 m3)
    (f4 : Same (.heap (n + 1 + 1)) m3 m4) (f5 : Same (.heap (n + 1 + 1)) m4 m5)
    (h2 : wordsOf m2 ⟨.heap n, 0, 8, 8⟩ = xs) (h5 : wordsOf m5 ⟨.heap (n + 1 + 1), 0, 8, 8⟩ = xs) :
    wordsOf m5 ⟨.heap n, 0, 8, 8⟩ = wordsOf m5 ⟨.heap (n + 1 + 1), 0, 8, 8⟩ := by
  rw [h5, ← h2, wordsOf_eq, f5.words ne!, f4.words ne!, f3.words ne!]; rfl

theorem get8Scalar_passes (W : World) : Passes (get8Scalar W) := by
  rintro ⟨d, n, fl, sk, bs, sn⟩ m hT
  obtain ⟨m1, r1, f1, -⟩ := genWords_run W d (.heap n) m (i := 8) 8 rfl
  obtain ⟨m2, r2, f2⟩ := makeBytes_run (.heap (n + 1)) m1 (i := 32) 32 rfl
  have hT2 := f2.tables (f1.tables hT)
  obtain ⟨m3, r3, f3, b3⟩ := put8_run .scalar (inn := ⟨.heap n, 0, 8, 8⟩) (k := n + 1) hT2 ne! rfl
  have hT3 := f3.tables hT2
  obtain ⟨m4, r4, f4⟩ := makeWords_run (.heap (n + 1 + 1)) m3 (i := 8) 8 rfl
  have hT4 := f4.tables hT3
  have hl := wordsOf_length m2 ⟨.heap n, 0, 8, 8⟩
  obtain ⟨m5, r5, f5, w5⟩ := get8_run .scalar (inn := ⟨.heap (n + 1), 0, 32, 32⟩) (k := n + 1 + 1) hT4 ne! hl (by
    rw [f4.bytes ne!]; exact take_of_prefix (sizeTwo_run hT3 hl).2 b3)
  exact .gen r1 (.makeB r2 (.call r3 (.makeW r4 (.call r5 (.call (deepEqualW_run (get8_back f3 f4 f5 rfl w5))
    (.fail_last rfl rfl rfl (f5.tables hT4)))))))

theorem get8Fast_passes {W : World} (hm : decodeMode W.cpu ≠ .normal) : Passes (get8Fast W) := by
  rintro ⟨d, n, fl, sk, bs, sn⟩ m hT
  obtain ⟨m1, r1, f1, -⟩ := genWords_run W d (.heap n) m (i := 8) 8 rfl
  obtain ⟨m2, r2, f2⟩ := makeBytes_run (.heap (n + 1)) m1 (i := 32) 32 rfl
  have hT2 := f2.tables (f1.tables hT)
  obtain ⟨m3, r3, f3, b3⟩ := put8_run .scalar (inn := ⟨.heap n, 0, 8, 8⟩) (k := n + 1) hT2 ne! rfl
  have hT3 := f3.tables hT2
  obtain ⟨m4, r4, f4⟩ := makeWords_run (.heap (n + 1 + 1)) m3 (i := 8) 8 rfl
  have hT4 := f4.tables hT3
  have hl := wordsOf_length m2 ⟨.heap n, 0, 8, 8⟩
  obtain ⟨m5, r5, f5, w5⟩ := get8_run .fast (inn := ⟨.heap (n + 1), 0, 32, 32⟩) (k := n + 1 + 1) hT4 ne! hl (by
    rw [f4.bytes ne!]; exact take_of_prefix (sizeTwo_run hT3 hl).2 b3)
  exact .skipIf (decide_eq_false hm) (.gen r1 (.makeB r2 (.call r3 (.makeW r4
    (.call ((congrArg (run · m4) (decode_amd64 hm _)).trans r5) (.call (deepEqualW_run (get8_back f3 f4 f5 rfl w5))
      (.fail_last rfl rfl rfl (f5.tables hT4))))))))

theorem get8DeltaScalar_passes {W : World} (hW : W.Ok) : Passes (get8DeltaScalar W) := by
  rintro ⟨d, n, fl, sk, bs, sn⟩ m hT
  obtain ⟨m0, r0, f0, -⟩ := genWords_run W d (.heap n) m (i := 8) 8 rfl
  obtain ⟨m1, r1, f1, -⟩ := sortWords_run hW ⟨.heap n, 0, 8, 8⟩ m0
  obtain ⟨m2, r2, f2⟩ := makeBytes_run (.heap (n + 1)) m1 (i := 32) 32 rfl
  have hT2 := f2.tables (Same.tables f1 (f0.tables hT))
  obtain ⟨m3, r3, f3, b3⟩ := put8Delta_run .scalar (inn := ⟨.heap n, 0, 8, 8⟩) (k := n + 1) hT2 ne! rfl 0
  have hT3 := f3.tables hT2
  obtain ⟨m4, r4, f4⟩ := makeWords_run (.heap (n + 1 + 1)) m3 (i := 8) 8 rfl
  have hT4 := f4.tables hT3
  have hl := wordsOf_length m2 ⟨.heap n, 0, 8, 8⟩
  obtain ⟨m5, r5, f5, w5⟩ := get8Delta_run .scalar (inn := ⟨.heap (n + 1), 0, 32, 32⟩) (k := n + 1 + 1) hT4 ne! 0 hl (by
    rw [f4.bytes ne!]; exact take_of_prefix (sizeTwo_run hT3 (by rw [delta_length, hl])).2 b3)
  exact .gen r0 (.call r1 (.makeB r2 (.call r3 (.makeW r4 (.call r5 (.call (deepEqualW_run (get8_back f3 f4 f5 rfl w5))
    (.fail_last rfl rfl rfl (f5.tables hT4))))))))

theorem get8DeltaFast_passes {W : World} (hW : W.Ok) (hm : decodeMode W.cpu ≠ .normal) : Passes (get8DeltaFast W) := by
  rintro ⟨d, n, fl, sk, bs, sn⟩ m hT
  obtain ⟨m0, r0, f0, -⟩ := genWords_run W d (.heap n) m (i := 8) 8 rfl
  obtain ⟨m1, r1, f1, -⟩ := sortWords_run hW ⟨.heap n, 0, 8, 8⟩ m0
  obtain ⟨m2, r2, f2⟩ := makeBytes_run (.heap (n + 1)) m1 (i := 32) 32 rfl
  have hT2 := f2.tables (Same.tables f1 (f0.tables hT))
  obtain ⟨m3, r3, f3, b3⟩ := put8Delta_run .scalar (inn := ⟨.heap n, 0, 8, 8⟩) (k := n + 1) hT2 ne! rfl 0
  have hT3 := f3.tables hT2
  obtain ⟨m4, r4, f4⟩ := makeWords_run (.heap (n + 1 + 1)) m3 (i := 8) 8 rfl
  have hT4 := f4.tables hT3
  have hl := wordsOf_length m2 ⟨.heap n, 0, 8, 8⟩
  obtain ⟨m5, r5, f5, w5⟩ := get8Delta_run .fast (inn := ⟨.heap (n + 1), 0, 32, 32⟩) (k := n + 1 + 1) hT4 ne! 0 hl (by
    rw [f4.bytes ne!]; exact take_of_prefix (sizeTwo_run hT3 (by rw [delta_length, hl])).2 b3)
  exact .skipIf (decide_eq_false hm) (.gen r0 (.call r1 (.makeB r2 (.call r3 (.makeW r4
    (.call ((congrArg (run · m4) (decode_amd64 hm _)).trans r5) (.call (deepEqualW_run (get8_back f3 f4 f5 rfl w5))
      (.fail_last rfl rfl rfl (f5.tables hT4)))))))))

/-! ## Blocks of four or fewer -/

theorem wordsN_prefix (m : Mem) (s : U32s) (b : Block) (o c k cp : Nat) (hb : s.blk = b) (ho : s.off = o) (hc : c ≤ k) (hk : s.len = k) :
    wordsOf m ⟨b, o, c, cp⟩ = (wordsOf m s).take c := by
  subst hb ho hk
  simp only [wordsOf_eq, wordsN, ← List.map_take, List.take_range, Nat.min_eq_left hc]

theorem dataBytes_zeros (i : Nat) : (dataBytes (List.replicate i 0)).length = i := by
  induction i with
  | zero => rfl
  | succ i ih =>
    have : dataBytes (List.replicate (i + 1) 0) = dataBytes [0] ++ dataBytes (List.replicate i 0) := by
      rw [← dataBytes_append]; rfl
    rw [this, List.length_append, ih]
    have : (dataBytes [0]).length = 1 := by decide +kernel
    omega

theorem delta_repeat {xs : List U32} {v : U32} (hx : xs ≠ []) (hv : xs.getD (xs.length - 1) 0 = v) (i : Nat) :
    delta 0 (xs ++ List.replicate i v) = delta 0 xs ++ List.replicate i 0 := by
  have hp := List.length_pos_iff.2 hx
  have e : xs.getLast?.getD 0 = v := by
    rw [← hv, List.getLast?_eq_getElem?, List.getD_eq_getElem?_getD]
  rw [delta_append, e]
  congr 1
  induction i with
  | zero => rfl
  | succ i ih => rw [List.replicate_succ, List.replicate_succ, delta, ih, BitVec.sub_self]; rfl

/-- Padding goes on: a slice of a heap block that is not new. -/
structure Padded (fl sk : Bool) (l : Nat) (xs : List U32) (r : U32s) (s' : St) (m' : Mem) : Prop where
  ex : ∃ d' n' bs sn, s' = ⟨d', n', fl, sk, bs, sn⟩ ∧ ∃ j, r.blk = .heap j ∧ j < n'
  len : r.len = l
  cap : r.len ≤ r.cap
  tables : TablesLoaded m'
  words : wordsOf m' r = xs

theorem pad_runs (W : World) {fl sk : Bool} (i : Nat) : ∀ {fuel : Nat} {nums : U32s} {s : St} {m : Mem} {l : Nat} {xs : List U32},
    i < fuel → i ≤ 4 → Padded fl sk l xs nums s m →
    Runs (pad W fuel i nums) s m (Padded fl sk (l + i) (xs ++ List.replicate i 0)) := by
  induction i with
  | zero =>
    intro fuel nums s m l xs hf _ h
    obtain ⟨fuel, rfl⟩ : ∃ f, fuel = f + 1 := ⟨fuel - 1, by omega⟩
    rw [List.replicate_zero, List.append_nil, Nat.add_zero]
    exact ⟨nums, s, m, h, fun _ _ => rfl⟩
  | succ i ih =>
    intro fuel nums s m l xs hf hi h
    obtain ⟨fuel, rfl⟩ : ∃ f, fuel = f + 1 := ⟨fuel - 1, by omega⟩
    obtain ⟨⟨d, n, bs, sn, rfl, j, hb, hj⟩, hl, hc, hT, hw⟩ := h
    obtain ⟨r, j', m', hr, hT', hb', hj', hl', hc', hw'⟩ := append_run W hb hj 0 hT
    have e : pad W (fuel + 1) (i + 1 : Nat) nums = (Tests.alloc (append W nums 0) >>= fun nums => pad W fuel i nums) := by
      have h1 : int64 (((i + 1 : Nat) : Int) - 1) = i := by rw [int64_eq (by omega) (by omega)]; omega
      simp only [pad, h1, show decide (0 < ((i + 1 : Nat) : Int)) = true from decide_eq_true (by omega)]
      rfl
    rw [e]
    refine .alloc hr ?_
    rw [show l + (i + 1) = (l + 1) + i by omega, List.replicate_succ, List.append_cons]
    exact ih (by omega) (by omega) ⟨⟨d, n + 1, bs, sn, rfl, j', hb', hj'⟩, by omega, hc', hT', by rw [hw', hw]⟩

theorem padLast_runs (W : World) {fl sk : Bool} {c : Nat} (h0 : 1 ≤ c) (h4 : c ≤ 4) {v : U32} (i : Nat) :
    ∀ {fuel : Nat} {nums : U32s} {s : St} {m : Mem} {l : Nat} {xs : List U32}, i < fuel → i ≤ 4 → c ≤ l →
    xs.getD (c - 1) 0 = v → Padded fl sk l xs nums s m →
    Runs (padLast W c fuel i nums) s m (Padded fl sk (l + i) (xs ++ List.replicate i v)) := by
  induction i with
  | zero =>
    intro fuel nums s m l xs hf _ _ _ h
    obtain ⟨fuel, rfl⟩ : ∃ f, fuel = f + 1 := ⟨fuel - 1, by omega⟩
    rw [List.replicate_zero, List.append_nil, Nat.add_zero]
    exact ⟨nums, s, m, h, fun _ _ => rfl⟩
  | succ i ih =>
    intro fuel nums s m l xs hf hi hcl hv h
    obtain ⟨fuel, rfl⟩ : ∃ f, fuel = f + 1 := ⟨fuel - 1, by omega⟩
    obtain ⟨⟨d, n, bs, sn, rfl, j, hb, hj⟩, hl, hc, hT, hw⟩ := h
    obtain ⟨r, j', m', hr, hT', hb', hj', hl', hc', hw'⟩ := append_run W hb hj v hT
    have e : padLast W c (fuel + 1) (i + 1 : Nat) nums =
        (Tests.call (getW nums ((c - 1 : Nat) : Int)) >>= fun v => Tests.alloc (append W nums v) >>= fun nums =>
          padLast W c fuel i nums) := by
      have h1 : int64 (((i + 1 : Nat) : Int) - 1) = i := by rw [int64_eq (by omega) (by omega)]; omega
      have h2 : int64 ((c : Int) - 1) = ((c - 1 : Nat) : Int) := by rw [int64_eq (by omega) (by omega)]; omega
      simp only [padLast, h1, h2, show decide (0 < ((i + 1 : Nat) : Int)) = true from decide_eq_true (by omega)]
      rfl
    have hg := getW_run nums m (c - 1) rfl (by omega)
    rw [words_of m nums (c - 1) (by omega), hw] at hg
    rw [show fn xs (c - 1) = v from hv] at hg
    rw [e]
    refine .call hg (.alloc hr ?_)
    rw [show l + (i + 1) = (l + 1) + i by omega, List.replicate_succ, List.append_cons]
    have hlx : xs.length = l := by rw [← hw, wordsOf_length, hl]
    refine ih (by omega) (by omega) (by omega) ?_ ⟨⟨d, n + 1, bs, sn, rfl, j', hb', hj'⟩, by omega, hc', hT', by rw [hw', hw]⟩
    rw [List.getD_eq_getElem?_getD, List.getElem?_append_left (by omega), ← List.getD_eq_getElem?_getD, hv]

theorem putScalar_passes {W : World} (hW : W.Ok) : Passes (putScalar W) := by
  rintro ⟨d, n, fl, sk, bs, sn⟩ m hT
  refine .randIntn ?_
  have hlt := hW.intn d 4 (by decide)
  generalize W.intn d 4 = r at hlt
  show Runs (gen W (int64 ((r : Int) + 1)) >>= _) _ _ _
  obtain ⟨c, rfl, hc⟩ : ∃ c, c = r + 1 ∧ c ≤ 4 := ⟨r + 1, rfl, by omega⟩
  have e1 : int64 ((r : Int) + 1) = ((r + 1 : Nat) : Int) := by rw [int64_eq (by omega) (by omega)]; omega
  have e2 : int64 (4 - ((r + 1 : Nat) : Int)) = ((3 - r : Nat) : Int) := by rw [int64_eq (by omega) (by omega)]; omega
  have e3 : int64 (((r + 1 : Nat) : Int) * 4) = ((4 * (r + 1) : Nat) : Int) := by rw [int64_eq (by omega) (by omega)]; omega
  simp only [e1, e2, e3]
  obtain ⟨m1, r1, f1, -⟩ := genWords_run W (d + 1) (.heap n) m (i := (r + 1 : Nat)) (r + 1) rfl
  refine .gen r1 (.bind (pad_runs W (fl := fl) (sk := sk) (3 - r) (by omega) (by omega)
    ⟨⟨_, _, _, _, rfl, n, rfl, by omega⟩, rfl, Nat.le_refl _, f1.tables hT, rfl⟩) ?_)
  rintro nums s m2 ⟨⟨d', n', bs', sn', rfl, j, hb, hj⟩, hl, hcap, hT2, hw⟩
  have hxl := wordsOf_length m1 (⟨.heap n, 0, r + 1, r + 1⟩ : U32s)
  generalize wordsOf m1 ⟨.heap n, 0, r + 1, r + 1⟩ = xs at hw hxl
  simp only at hl hxl
  have hl : nums.len = 4 := by omega
  obtain ⟨m3, r3, f3⟩ := makeBytes_run (.heap n') m2 (i := 16) 16 rfl
  have hT3 := f3.tables hT2
  obtain ⟨m4, r4, f4, b4⟩ := put4_run (inn := nums) (k := n') (m := m3) hl
  have hT4 := f4.tables hT3
  have hne : nums.blk ≠ .heap n' := by rw [hb]; exact ne!
  have hne' : nums.blk ≠ .heap (n' + 1) := by rw [hb]; exact ne!
  have w3 : wordsOf m3 nums = xs ++ List.replicate (3 - r) 0 := by
    rw [← hw, wordsOf_eq, f3.words hne]; rfl
  rw [w3] at r4 b4
  have hd := dataBytes_append xs (List.replicate (3 - r) 0)
  have hdl := congrArg List.length hd
  rw [List.length_append, dataBytes_zeros] at hdl
  have s4 := size_run hT4 (xs := xs ++ List.replicate (3 - r) 0) (by simp; omega)
  rw [hdl, List.length_append, List.length_replicate, show 4 - (xs.length + (3 - r)) = 0 by omega, Nat.add_zero] at s4
  have hbd := (dataBytes_bounds xs).2
  obtain ⟨m5, r5, f5⟩ := makeBytes_run (.heap (n' + 1)) m4 (i := (4 * (r + 1) : Nat)) (4 * (r + 1)) rfl
  have hT5 := f5.tables hT4
  have w5 : wordsOf m5 ⟨nums.blk, nums.off, r + 1, nums.cap⟩ = xs := by
    rw [wordsN_prefix m5 nums _ _ (r + 1) 4 _ rfl rfl hc hl, wordsOf_eq, f5.words hne', f4.words hne, ← wordsOf_eq, w3,
      ← hxl, List.take_left']
    rfl
  obtain ⟨m6, r6, f6, b6⟩ := putUint32_run (inn := ⟨nums.blk, nums.off, r + 1, nums.cap⟩) (k := n' + 1) (m := m5) hT5
    hne' hc (i := (r + 1 : Nat)) rfl rfl
  rw [w5] at r6 b6
  have hT6 := f6.tables hT5
  have s6 := size_run hT6 (xs := xs) (by omega)
  have e4 : int64 ((((dataBytes xs).length + (3 - r) : Nat) : Int) - ((3 - r : Nat) : Int)) = (dataBytes xs).length := by
    rw [int64_eq (by omega) (by omega)]; omega
  rw [show (4 - xs.length) = 3 - r by omega] at s6
  refine .makeB r3 (.call r4 (.call s4 (.upto (upto_run m4 _ e4 (by show _ ≤ 16; omega)) (.makeB r5
    (.upto (upto_run m5 _ rfl (by omega)) (.call r6 (.call s6 (.upto (upto_run m6 _ e4 (by show _ ≤ 4 * (r + 1); omega))
      (.call (deepEqualB_run ?_) (.fail_last rfl rfl rfl hT6))))))))))
  rw [b6, f6.bytes ne!, f5.bytes ne!, bytesOf_prefix m4 (.heap n') 0 _ 16 _ 16 (show _ ≤ (dataBytes (xs ++ List.replicate (3 - r) 0)).length by omega),
    b4, hd, List.take_left']
  rfl

theorem putDeltaScalar_passes {W : World} (hW : W.Ok) : Passes (putDeltaScalar W) := by
  rintro ⟨d, n, fl, sk, bs, sn⟩ m hT
  refine .randIntn ?_
  have hlt := hW.intn d 4 (by decide)
  generalize W.intn d 4 = r at hlt
  show Runs (gen W (int64 ((r : Int) + 1)) >>= _) _ _ _
  have hc : r + 1 ≤ 4 := by omega
  have e1 : int64 ((r : Int) + 1) = ((r + 1 : Nat) : Int) := by rw [int64_eq (by omega) (by omega)]; omega
  have e2 : int64 (4 - ((r + 1 : Nat) : Int)) = ((3 - r : Nat) : Int) := by rw [int64_eq (by omega) (by omega)]; omega
  have e3 : int64 (((r + 1 : Nat) : Int) * 4) = ((4 * (r + 1) : Nat) : Int) := by rw [int64_eq (by omega) (by omega)]; omega
  simp only [e1, e2, e3]
  obtain ⟨m0, r0, f0, -⟩ := genWords_run W (d + 1) (.heap n) m (i := (r + 1 : Nat)) (r + 1) rfl
  obtain ⟨m1, r1, f1, -⟩ := sortWords_run hW ⟨.heap n, 0, r + 1, r + 1⟩ m0
  refine .gen r0 (.call r1 (.bind (padLast_runs W (fl := fl) (sk := sk) (c := r + 1) (by omega) hc (3 - r) (by omega) (by omega)
    (Nat.le_refl _) rfl
    ⟨⟨_, _, _, _, rfl, n, rfl, by omega⟩, rfl, Nat.le_refl _, Same.tables f1 (f0.tables hT), rfl⟩) ?_))
  rintro nums s m2 ⟨⟨d', n', bs', sn', rfl, j, hb, hj⟩, hl, hcap, hT2, hw⟩
  have hxl := wordsOf_length m1 (⟨.heap n, 0, r + 1, r + 1⟩ : U32s)
  generalize wordsOf m1 ⟨.heap n, 0, r + 1, r + 1⟩ = ys at hw hxl
  simp only at hl hxl
  have hl : nums.len = 4 := by omega
  have hne : nums.blk ≠ .heap n' := by rw [hb]; exact ne!
  have hne1 : nums.blk ≠ .heap (n' + 1) := by rw [hb]; exact ne!
  have hne2 : nums.blk ≠ .heap (n' + 1 + 1) := by rw [hb]; exact ne!
  obtain ⟨m3, r3, f3⟩ := makeWords_run (.heap n') m2 (i := 4) 4 rfl
  obtain ⟨m4, r4, f4, w4⟩ := utilDelta_run (inn := nums) (out := ⟨.heap n', 0, 4, 4⟩) m3 hne hl
  obtain ⟨m5, r5, f5⟩ := makeBytes_run (.heap (n' + 1)) m4 (i := 16) 16 rfl
  have hT5 := f5.tables (Same.tables f4 (f3.tables hT2))
  obtain ⟨m6, r6, f6, b6⟩ := put4_run (inn := ⟨.heap n', 0, 4, 4⟩) (k := n' + 1) (m := m5) rfl
  have hT6 := f6.tables hT5
  have w3 : wordsOf m3 nums = ys ++ List.replicate (3 - r) (ys.getD (r + 1 - 1) 0) := by
    rw [← hw, wordsOf_eq, f3.words hne]; rfl
  have hy : ys ≠ [] := fun h => by rw [h] at hxl; exact absurd hxl (by simp)
  have w5 : wordsOf m5 ⟨.heap n', 0, 4, 4⟩ = delta 0 ys ++ List.replicate (3 - r) 0 := by
    rw [← delta_repeat hy (by rw [hxl]), ← w3, ← w4, wordsOf_eq, f5.words ne!]; rfl
  rw [w5] at r6 b6
  have hdl : (delta 0 ys).length = r + 1 := by rw [delta_length, hxl]
  obtain ⟨m7, r7, f7⟩ := makeBytes_run (.heap (n' + 1 + 1)) m6 (i := (4 * (r + 1) : Nat)) (4 * (r + 1)) rfl
  have hT7 := f7.tables hT6
  have w7 : wordsOf m7 ⟨nums.blk, nums.off, r + 1, nums.cap⟩ = ys := by
    rw [wordsN_prefix m7 nums _ _ (r + 1) 4 _ rfl rfl hc hl, wordsOf_eq, f7.words hne2, f6.words hne1, f5.words hne1,
      Same.words f4 hne, ← wordsOf_eq, w3, ← hxl, List.take_left']
    rfl
  obtain ⟨m8, r8, f8, b8⟩ := putUint32Delta_run (inn := ⟨nums.blk, nums.off, r + 1, nums.cap⟩) (k := n' + 1 + 1) (m := m7) hT7
    hne2 hc (i := (r + 1 : Nat)) rfl rfl 0
  rw [w7] at r8 b8
  have hT8 := f8.tables hT7
  clear w3 w4 w5 w7 hw
  generalize delta 0 ys = xs at *
  have hd := dataBytes_append xs (List.replicate (3 - r) 0)
  have hdd := congrArg List.length hd
  rw [List.length_append, dataBytes_zeros] at hdd
  have s6 := size_run hT6 (xs := xs ++ List.replicate (3 - r) 0) (by simp; omega)
  rw [hdd, List.length_append, List.length_replicate, show 4 - (xs.length + (3 - r)) = 0 by omega, Nat.add_zero] at s6
  have hbd := (dataBytes_bounds xs).2
  have s8 := size_run hT8 (xs := xs) (by omega)
  have e4 : int64 ((((dataBytes xs).length + (3 - r) : Nat) : Int) - ((3 - r : Nat) : Int)) = (dataBytes xs).length := by
    rw [int64_eq (by omega) (by omega)]; omega
  rw [show (4 - xs.length) = 3 - r by omega] at s8
  refine .makeW r3 (.call r4 (.makeB r5 (.call r6 (.call s6 (.upto (upto_run m6 _ e4 (by show _ ≤ 16; omega)) (.makeB r7
    (.upto (upto_run m7 _ rfl (by omega)) (.call r8 (.call s8 (.upto (upto_run m8 _ e4 (by show _ ≤ 4 * (r + 1); omega))
      (.call (deepEqualB_run ?_) (.fail_last rfl rfl rfl hT8))))))))))))
  rw [b8, f8.bytes ne!, f7.bytes ne!, bytesOf_prefix m6 (.heap (n' + 1)) 0 _ 16 _ 16
    (show _ ≤ (dataBytes (xs ++ List.replicate (3 - r) 0)).length by omega), b6, hd, List.take_left']
  rfl

theorem getScalar_passes {W : World} (hW : W.Ok) : Passes (getScalar W) := by
  rintro ⟨d, n, fl, sk, bs, sn⟩ m hT
  refine .randIntn ?_
  have hlt := hW.intn d 4 (by decide)
  generalize W.intn d 4 = r at hlt
  show Runs (gen W (int64 ((r : Int) + 1)) >>= _) _ _ _
  have hc : r + 1 ≤ 4 := by omega
  have e1 : int64 ((r : Int) + 1) = ((r + 1 : Nat) : Int) := by rw [int64_eq (by omega) (by omega)]; omega
  have e3 : int64 (((r + 1 : Nat) : Int) * 4) = ((4 * (r + 1) : Nat) : Int) := by rw [int64_eq (by omega) (by omega)]; omega
  simp only [e1, e3]
  obtain ⟨m1, r1, f1, -⟩ := genWords_run W (d + 1) (.heap n) m (i := (r + 1 : Nat)) (r + 1) rfl
  obtain ⟨m2, r2, f2⟩ := makeBytes_run (.heap (n + 1)) m1 (i := (4 * (r + 1) : Nat)) (4 * (r + 1)) rfl
  have hT2 := f2.tables (f1.tables hT)
  obtain ⟨m3, r3, f3, b3⟩ := putUint32_run (inn := ⟨.heap n, 0, r + 1, r + 1⟩) (k := n + 1) (m := m2) hT2
    ne! hc (i := (r + 1 : Nat)) rfl rfl
  have hT3 := f3.tables hT2
  obtain ⟨m4, r4, f4⟩ := makeWords_run (.heap (n + 1 + 1)) m3 (i := (r + 1 : Nat)) (r + 1) rfl
  have hl := wordsOf_length m2 (⟨.heap n, 0, r + 1, r + 1⟩ : U32s)
  have hbd := (dataBytes_bounds (wordsOf m2 ⟨.heap n, 0, r + 1, r + 1⟩)).2
  rw [hl] at hbd
  obtain ⟨v, m5, r5, f5, w5⟩ := getUint32_run (inn := ⟨.heap (n + 1), 0, 4 * (r + 1), 4 * (r + 1)⟩) (k := n + 1 + 1) (m := m4)
    ne! hc (i := (r + 1 : Nat)) rfl hl (by rw [f4.bytes ne!]; exact take_of_prefix hbd b3)
  refine .gen r1 (.makeB r2 (.call r3 (.makeW r4 (.call r5 (.call (deepEqualW_run ?_)
    (.fail_last rfl rfl rfl (f5.tables (f4.tables hT3))))))))
  rw [w5, wordsOf_eq, f5.words ne!, f4.words ne!, f3.words ne!]; rfl

theorem getDeltaScalar_passes {W : World} (hW : W.Ok) : Passes (getDeltaScalar W) := by
  rintro ⟨d, n, fl, sk, bs, sn⟩ m hT
  refine .randIntn ?_
  have hlt := hW.intn d 4 (by decide)
  generalize W.intn d 4 = r at hlt
  show Runs (gen W (int64 ((r : Int) + 1)) >>= _) _ _ _
  have hc : r + 1 ≤ 4 := by omega
  have e1 : int64 ((r : Int) + 1) = ((r + 1 : Nat) : Int) := by rw [int64_eq (by omega) (by omega)]; omega
  have e3 : int64 (((r + 1 : Nat) : Int) * 4) = ((4 * (r + 1) : Nat) : Int) := by rw [int64_eq (by omega) (by omega)]; omega
  simp only [e1, e3]
  obtain ⟨m0, r0, f0, -⟩ := genWords_run W (d + 1) (.heap n) m (i := (r + 1 : Nat)) (r + 1) rfl
  obtain ⟨m1, r1, f1, -⟩ := sortWords_run hW ⟨.heap n, 0, r + 1, r + 1⟩ m0
  obtain ⟨m2, r2, f2⟩ := makeBytes_run (.heap (n + 1)) m1 (i := (4 * (r + 1) : Nat)) (4 * (r + 1)) rfl
  obtain ⟨m3, r3, f3⟩ := makeWords_run (.heap (n + 1 + 1)) m2 (i := (r + 1 : Nat)) (r + 1) rfl
  obtain ⟨m4, r4, f4, w4⟩ := utilDelta_run (inn := ⟨.heap n, 0, r + 1, r + 1⟩) (out := ⟨.heap (n + 1 + 1), 0, r + 1, r + 1⟩) m3
    ne! rfl
  have hT4 := Same.tables f4 (f3.tables (f2.tables (Same.tables f1 (f0.tables hT))))
  obtain ⟨m5, r5, f5, b5⟩ := putUint32_run (inn := ⟨.heap (n + 1 + 1), 0, r + 1, r + 1⟩) (k := n + 1) (m := m4) hT4
    ne! hc (i := (r + 1 : Nat)) rfl rfl
  rw [w4] at r5 b5
  have hT5 := f5.tables hT4
  obtain ⟨m6, r6, f6⟩ := makeWords_run (.heap (n + 1 + 1 + 1)) m5 (i := (r + 1 : Nat)) (r + 1) rfl
  have hl := wordsOf_length m3 (⟨.heap n, 0, r + 1, r + 1⟩ : U32s)
  have hbd := (dataBytes_bounds (delta 0 (wordsOf m3 ⟨.heap n, 0, r + 1, r + 1⟩))).2
  rw [delta_length, hl] at hbd
  obtain ⟨v, m7, r7, f7, w7⟩ := getUint32Delta_run (inn := ⟨.heap (n + 1), 0, 4 * (r + 1), 4 * (r + 1)⟩) (k := n + 1 + 1 + 1)
    (m := m6) ne! hc (i := (r + 1 : Nat)) rfl 0 hl (by rw [f6.bytes ne!]; exact take_of_prefix hbd b5)
  refine .gen r0 (.call r1 (.makeB r2 (.makeW r3 (.call r4 (.call r5 (.makeW r6 (.call r7 (.call (deepEqualW_run ?_)
    (.fail_last rfl rfl rfl (f7.tables (f6.tables hT5)))))))))))
  rw [w7, wordsOf_eq, f7.words ne!, f6.words ne!, f5.words ne!, Same.words f4 ne!]; rfl

/-! ## Streams -/

theorem writeAllScalar_passes (W : World) : Passes (writeAllScalar W) := by
  refine Passes.times ?_ 6
  rintro ⟨d, n, fl, sk, bs, sn⟩ m hT
  refine .randCount fun c hc => ?_
  obtain ⟨m1, r1, f1, -⟩ := genWords_run W (d + 2) (.heap n) m (i := c) c rfl
  obtain ⟨m2, l, cp, r2, hl, f2, b2⟩ := write_run .scalar (j := n) (k := n + 1) (n := c) (f1.tables hT) (by omega) (by omega)
  obtain ⟨m3, r3, f3⟩ := makeWords_run (.heap (n + 1 + 1)) m2 (i := c) c rfl
  have hT3 := f3.tables (f2.tables (f1.tables hT))
  obtain ⟨m4, r4, f4, w4⟩ := read_run .scalar (n := c) (j := n + 1) (k := n + 1 + 1) hT3 (by omega) (by omega) hl rfl (wordsOf_length _ _)
    ((f3.bytes ne!).trans b2)
  refine .gen r1 (.alloc r2 (.subtest (.makeW r3 (.call r4 (.call (deepEqualW_run ?_)
    (.fail_last rfl rfl rfl (f4.tables hT3)))))))
  rw [w4, wordsOf_eq, f4.words ne!, f3.words ne!, f2.words ne!]; rfl

theorem readAllScalar_passes (W : World) : Passes (readAllScalar W) := writeAllScalar_passes W

theorem readAllFast_passes {W : World} (hm : decodeMode W.cpu ≠ .normal) : Passes (readAllFast W) := by
  rintro ⟨d, n, fl, sk, bs, sn⟩ m hT
  refine .skipIf (decide_eq_false hm) (Passes.times ?_ 6 _ _ hT)
  rintro ⟨d, n, fl, sk, bs, sn⟩ m hT
  refine .randCount fun c hc => ?_
  obtain ⟨m1, r1, f1, -⟩ := genWords_run W (d + 2) (.heap n) m (i := c) c rfl
  obtain ⟨m2, l, cp, r2, hl, f2, b2⟩ := write_run .scalar (j := n) (k := n + 1) (n := c) (f1.tables hT) (by omega) (by omega)
  obtain ⟨m3, r3, f3⟩ := makeWords_run (.heap (n + 1 + 1)) m2 (i := c) c rfl
  have hT3 := f3.tables (f2.tables (f1.tables hT))
  obtain ⟨m4, r4, f4, w4⟩ := read_run .fast (n := c) (j := n + 1) (k := n + 1 + 1) hT3 (by omega) (by omega) hl rfl (wordsOf_length _ _)
    ((f3.bytes ne!).trans b2)
  refine .gen r1 (.alloc r2 (.subtest (.makeW r3 (.call ((congrArg (run · m3) (decode_amd64 hm _)).trans r4)
    (.call (deepEqualW_run ?_) (.fail_last rfl rfl rfl (f4.tables hT3)))))))
  rw [w4, wordsOf_eq, f4.words ne!, f3.words ne!, f2.words ne!]; rfl

theorem readAllDeltaScalar_passes {W : World} (hW : W.Ok) : Passes (readAllDeltaScalar W) := by
  refine Passes.times ?_ 6
  rintro ⟨d, n, fl, sk, bs, sn⟩ m hT
  refine .randCount fun c hc => ?_
  obtain ⟨m0, r0, f0, -⟩ := genWords_run W (d + 2) (.heap n) m (i := c) c rfl
  obtain ⟨m1, r1, f1, -⟩ := sortWords_run hW ⟨.heap n, 0, c, c⟩ m0
  have hT1 := Same.tables f1 (f0.tables hT)
  obtain ⟨m2, l, cp, r2, hl, f2, b2⟩ := writeDelta_run .scalar (j := n) (k := n + 1) (n := c) hT1 (by omega) (by omega) 0
  obtain ⟨m3, r3, f3⟩ := makeWords_run (.heap (n + 1 + 1)) m2 (i := c) c rfl
  have hT3 := f3.tables (f2.tables hT1)
  obtain ⟨m4, r4, f4, w4⟩ := readDelta_run .scalar (n := c) (j := n + 1) (k := n + 1 + 1) hT3 (by omega) (by omega) hl rfl 0
    (wordsOf_length _ _) ((f3.bytes ne!).trans b2)
  refine .gen r0 (.call r1 (.alloc r2 (.subtest (.makeW r3 (.call r4 (.call (deepEqualW_run ?_)
    (.fail_last rfl rfl rfl (f4.tables hT3))))))))
  rw [w4, wordsOf_eq, f4.words ne!, f3.words ne!, f2.words ne!]; rfl

theorem writeAllFast_passes {W : World} (hm : encodeMode W.cpu ≠ .normal) : Passes (writeAllFast W) := by
  rintro ⟨d, n, fl, sk, bs, sn⟩ m hT
  refine .skipIf (decide_eq_false hm) (Passes.times ?_ 6 _ _ hT)
  rintro ⟨d, n, fl, sk, bs, sn⟩ m hT
  refine .randCount fun c hc => ?_
  obtain ⟨m1, r1, f1, -⟩ := genWords_run W (d + 2) (.heap n) m (i := c) c rfl
  have hT1 := f1.tables hT
  obtain ⟨m2, l, cp, r2, hl, f2, b2⟩ := write_run .scalar (j := n) (k := n + 1) (n := c) hT1 (by omega) (by omega)
  have hT2 := f2.tables hT1
  obtain ⟨m3, l', cp', r3, hl', f3, b3⟩ := write_run .fast (j := n) (k := n + 1 + 1) (n := c) hT2 (by omega) (by omega)
  refine .gen r1 (.alloc r2 (.subtest (.alloc ((congrArg (run · m2) (encode_amd64 hm _)).trans r3)
    (.call (deepEqualB_run ?_) (.fail_last rfl rfl rfl (f3.tables hT2))))))
  rw [b3, f3.bytes ne!, b2, wordsOf_eq, wordsOf_eq, f2.words ne!]

/-- What follows the generation of the numbers in the tests that compare with the scalar encoding of the differences. -/
theorem diffed_run (f : Fn) {n c : Nat} {m1 : Mem} (hT : TablesLoaded m1) (hc : c < 1000000) :
    ∃ m2 m3 m4 m5 l cp l' cp', run (makeWords (.heap (n + 1)) c) m1 = (.ok ⟨.heap (n + 1), 0, c, c⟩, m2) ∧
      run (utilDelta ⟨.heap n, 0, c, c⟩ ⟨.heap (n + 1), 0, c, c⟩) m2 = (.ok (), m3) ∧
      run (SVB.writeAllScalar (.heap (n + 1 + 1)) ⟨.heap (n + 1), 0, c, c⟩) m3 = (.ok ⟨.heap (n + 1 + 1), 0, l, cp⟩, m4) ∧
      run (f.writeDelta (.heap (n + 1 + 1 + 1)) ⟨.heap n, 0, c, c⟩ 0) m4 = (.ok ⟨.heap (n + 1 + 1 + 1), 0, l', cp'⟩, m5) ∧
      bytesOf m5 ⟨.heap (n + 1 + 1), 0, l, cp⟩ = bytesOf m5 ⟨.heap (n + 1 + 1 + 1), 0, l', cp'⟩ ∧ TablesLoaded m5 ∧
      TablesLoaded m4 ∧ l ≤ cp ∧
      bytesOf m4 ⟨.heap (n + 1 + 1), 0, l, cp⟩ = encode (delta 0 (wordsOf m4 ⟨.heap n, 0, c, c⟩)) := by
  obtain ⟨m2, r2, f2⟩ := makeWords_run (.heap (n + 1)) m1 (i := c) c rfl
  obtain ⟨m3, r3, f3, w3⟩ := utilDelta_run (inn := ⟨.heap n, 0, c, c⟩) (out := ⟨.heap (n + 1), 0, c, c⟩) m2 ne! rfl
  have hT3 := Same.tables f3 (f2.tables hT)
  obtain ⟨m4, l, cp, r4, hl, f4, b4⟩ := write_run .scalar (j := n + 1) (k := n + 1 + 1) (n := c) hT3 (by omega) (by omega)
  have hT4 := f4.tables hT3
  obtain ⟨m5, l', cp', r5, hl', f5, b5⟩ := writeDelta_run f (j := n) (k := n + 1 + 1 + 1) (n := c) hT4 (by omega) (by omega) 0
  have e : wordsOf m4 ⟨.heap n, 0, c, c⟩ = wordsOf m2 ⟨.heap n, 0, c, c⟩ := by
    rw [wordsOf_eq, f4.words ne!, Same.words f3 ne!]; rfl
  refine ⟨m2, m3, m4, m5, l, cp, l', cp', r2, r3, r4, r5, ?_, f5.tables hT4, hT4, hl, ?_⟩
  · rw [b5, f5.bytes ne!, b4, w3, e]
  · rw [b4, w3, e]

theorem writeAllDeltaScalar_passes {W : World} (hW : W.Ok) : Passes (writeAllDeltaScalar W) := by
  refine Passes.times ?_ 6
  rintro ⟨d, n, fl, sk, bs, sn⟩ m hT
  refine .randCount fun c hc => ?_
  obtain ⟨m0, r0, f0, -⟩ := genWords_run W (d + 2) (.heap n) m (i := c) c rfl
  obtain ⟨m1, r1, f1, -⟩ := sortWords_run hW ⟨.heap n, 0, c, c⟩ m0
  obtain ⟨m2, m3, m4, m5, l, cp, l', cp', r2, r3, r4, r5, hb, hT5, -⟩ :=
    diffed_run .scalar (n := n) (Same.tables f1 (f0.tables hT)) hc
  exact .gen r0 (.call r1 (.makeW r2 (.call r3 (.alloc r4 (.subtest (.alloc r5 (.call (deepEqualB_run hb)
    (.fail_last rfl rfl rfl hT5))))))))

theorem writeAllDeltaFast_passes {W : World} (hW : W.Ok) (hm : encodeMode W.cpu ≠ .normal) : Passes (writeAllDeltaFast W) := by
  rintro ⟨d, n, fl, sk, bs, sn⟩ m hT
  refine .skipIf (decide_eq_false hm) (Passes.times ?_ 6 _ _ hT)
  rintro ⟨d, n, fl, sk, bs, sn⟩ m hT
  refine .randCount fun c hc => ?_
  obtain ⟨m0, r0, f0, -⟩ := genWords_run W (d + 2) (.heap n) m (i := c) c rfl
  obtain ⟨m1, r1, f1, -⟩ := sortWords_run hW ⟨.heap n, 0, c, c⟩ m0
  obtain ⟨m2, m3, m4, m5, l, cp, l', cp', r2, r3, r4, r5, hb, hT5, -⟩ :=
    diffed_run .fast (n := n) (Same.tables f1 (f0.tables hT)) hc
  exact .gen r0 (.call r1 (.makeW r2 (.call r3 (.alloc r4 (.subtest
    (.alloc ((congrArg (run · m4) (encode_amd64 hm _)).trans r5) (.call (deepEqualB_run hb)
    (.fail_last rfl rfl rfl hT5))))))))

theorem readAllDeltaFast_passes {W : World} (hW : W.Ok) (hm : decodeMode W.cpu ≠ .normal) : Passes (readAllDeltaFast W) := by
  rintro ⟨d, n, fl, sk, bs, sn⟩ m hT
  refine .skipIf (decide_eq_false hm) (Passes.times ?_ 6 _ _ hT)
  rintro ⟨d, n, fl, sk, bs, sn⟩ m hT
  refine .randCount fun c hc => ?_
  obtain ⟨m0, r0, f0, -⟩ := genWords_run W (d + 2) (.heap n) m (i := c) c rfl
  obtain ⟨m1, r1, f1, -⟩ := sortWords_run hW ⟨.heap n, 0, c, c⟩ m0
  obtain ⟨m2, m3, m4, -, l, cp, -, -, r2, r3, r4, -, -, -, hT4, hl, b4⟩ :=
    diffed_run .scalar (n := n) (Same.tables f1 (f0.tables hT)) hc
  obtain ⟨m5, r5, f5⟩ := makeWords_run (.heap (n + 1 + 1 + 1)) m4 (i := c) c rfl
  have hT5 := f5.tables hT4
  obtain ⟨m6, r6, f6, w6⟩ := readDelta_run .fast (n := c) (j := n + 1 + 1) (k := n + 1 + 1 + 1) hT5 (by omega) (by omega) hl rfl 0
    (wordsOf_length _ _) ((f5.bytes ne!).trans b4)
  refine .gen r0 (.call r1 (.makeW r2 (.call r3 (.alloc r4 (.subtest (.makeW r5
    (.call ((congrArg (run · m5) (decode_amd64 hm _)).trans r6) (.call (deepEqualW_run ?_)
    (.fail_last rfl rfl rfl (f6.tables hT5))))))))))
  rw [w6, wordsOf_eq, f6.words ne!, f5.words ne!]; rfl

/-! ## Variable-length integers -/

theorem varintRoundTrip_passes (W : World) : Passes (varintRoundTrip W) := by
  rintro ⟨d, n, fl, sk, bs, sn⟩ m hT
  obtain ⟨m1, r1, f1, -⟩ := genWords_run W d (.heap n) m (i := 8) 8 rfl
  obtain ⟨m2, r2, f2⟩ := makeBytes_run (.heap (n + 1)) m1 (i := 40) 40 rfl
  have hr := (C32_room (wordsOf m2 ⟨.heap n, 0, 8, 8⟩)).2
  rw [wordsOf_length] at hr
  obtain ⟨m3, r3, b3, f3⟩ := (C32_putVarint (nums := ⟨.heap n, 0, 8, 8⟩) (out := ⟨.heap (n + 1), 0, 40, 40⟩) (m := m2)
    (.inl ne!) (by show 40 < _; decide)).1 hr
  have f3 : Same (.heap (n + 1)) m2 m3 := fun q hq => f3 q fun h => hq h.1
  obtain ⟨m4, r4, f4⟩ := makeWords_run (.heap (n + 1 + 1)) m3 (i := 8) 8 rfl
  obtain ⟨m5, r5, w5, f5⟩ := C32_getVarint (m := m4) (out := ⟨.heap (n + 1 + 1), 0, 8, 8⟩)
    (xs := wordsOf m2 ⟨.heap n, 0, 8, 8⟩)
    (data := ⟨.heap (n + 1), 0, varintSize (wordsOf m2 ⟨.heap n, 0, 8, 8⟩), 40⟩) (.inl ne!)
    (by simp only at hr ⊢; omega) ((f4.bytes ne!).trans b3) (by rw [wordsOf_length]; exact Nat.le_refl _)
  have f5 : Same (.heap (n + 1 + 1)) m4 m5 := fun q hq => f5 q fun h => hq h.1
  rw [wordsOf_length] at w5
  refine .gen r1 (.makeB r2 (.call r3 (.upto (upto_run m3 _ rfl hr) (.makeW r4 (.call r5 (.failIf (by simp)
    (.call (deepEqualW_run ?_) (.fail_last rfl rfl rfl (f5.tables (f4.tables (f3.tables (f2.tables (f1.tables hT)))))))))))))
  exact get8_back f3 f4 f5 rfl w5

theorem varintDeltaRoundTrip_passes {W : World} (hW : W.Ok) : Passes (varintDeltaRoundTrip W) := by
  rintro ⟨d, n, fl, sk, bs, sn⟩ m hT
  obtain ⟨m0, r0, f0, -⟩ := genWords_run W d (.heap n) m (i := 8) 8 rfl
  obtain ⟨m1, r1, f1, -⟩ := sortWords_run hW ⟨.heap n, 0, 8, 8⟩ m0
  obtain ⟨m2, r2, f2⟩ := makeBytes_run (.heap (n + 1)) m1 (i := 40) 40 rfl
  have hr := (C32_room (delta 0 (wordsOf m2 ⟨.heap n, 0, 8, 8⟩))).2
  rw [delta_length, wordsOf_length] at hr
  obtain ⟨m3, r3, b3, f3⟩ := (C32_putDeltaVarint (nums := ⟨.heap n, 0, 8, 8⟩) (out := ⟨.heap (n + 1), 0, 40, 40⟩) (m := m2) 0
    (.inl ne!) (by show 40 < _; decide)).1 hr
  have f3 : Same (.heap (n + 1)) m2 m3 := fun q hq => f3 q fun h => hq h.1
  obtain ⟨m4, r4, f4⟩ := makeWords_run (.heap (n + 1 + 1)) m3 (i := 8) 8 rfl
  obtain ⟨m5, r5, w5, f5⟩ := C32_getDeltaVarint (m := m4) (out := ⟨.heap (n + 1 + 1), 0, 8, 8⟩)
    (ds := delta 0 (wordsOf m2 ⟨.heap n, 0, 8, 8⟩))
    (data := ⟨.heap (n + 1), 0, varintSize (delta 0 (wordsOf m2 ⟨.heap n, 0, 8, 8⟩)), 40⟩) 0 (.inl ne!)
    (by simp only at hr ⊢; omega) ((f4.bytes ne!).trans b3) (by rw [delta_length, wordsOf_length]; exact Nat.le_refl _)
  have f5 : Same (.heap (n + 1 + 1)) m4 m5 := fun q hq => f5 q fun h => hq h.1
  rw [delta_length, wordsOf_length, undelta_delta] at w5
  refine .gen r0 (.call r1 (.makeB r2 (.call r3 (.upto (upto_run m3 _ rfl hr) (.makeW r4 (.call r5 (.failIf (by simp)
    (.call (deepEqualW_run ?_)
      (.fail_last rfl rfl rfl (f5.tables (f4.tables (f3.tables (f2.tables (Same.tables f1 (f0.tables hT)))))))))))))))
  exact get8_back f3 f4 f5 rfl w5

end SVB.Tests
