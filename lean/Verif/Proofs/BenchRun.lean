import Verif.Model.Benchmarks
import Verif.SpecBench
import Verif.Proofs.TestRun

/-!
# The benchmarks run to their end

Every benchmark of `/repo`, as written in `Verif.Model.Benchmarks`, comes to its end without a panic, and what it measured did its
job.
-/

set_option autoImplicit false

namespace SVB.Tests
open SVB.Spec SVB.Props

local macro "ne!" : term => `(by intro h; injection h; omega)

/-! ## Loops -/

theorem Runs.forUpto {α : Type} {N fuel : Nat} {f : Int → α → M α} (I : Nat → α → St → Mem → Prop) (hf : fuel ≤ 2 ^ 63)
    (h : ∀ (i : Nat) a s m, i < N → I i a s m → Runs (f i a) s m (I (i + 1))) :
    ∀ (k i : Nat) a s m, i + k = N → k < fuel → N < 2 ^ 63 → I i a s m → Runs (forUpto N f fuel i a) s m (I N) := by
  intro k
  induction k generalizing fuel with
  | zero =>
    intro i a s m hi hk _ hI
    obtain ⟨fuel, rfl⟩ : ∃ g, fuel = g + 1 := ⟨fuel - 1, by omega⟩
    have e : Tests.forUpto N f (fuel + 1) i a = Pure.pure a := by
      simp only [Tests.forUpto, show decide ((i : Int) < N) = false from decide_eq_false (by omega)]
      rfl
    rw [e]
    obtain rfl : i = N := by omega
    exact .pure hI
  | succ k ih =>
    intro i a s m hi hk hN hI
    obtain ⟨fuel, rfl⟩ : ∃ g, fuel = g + 1 := ⟨fuel - 1, by omega⟩
    have e : Tests.forUpto N f (fuel + 1) i a = (f i a >>= fun a' => Tests.forUpto N f fuel (i + 1 : Nat) a') := by
      have h1 : int64 ((i : Int) + 1) = ((i + 1 : Nat) : Int) := by rw [int64_eq (by omega) (by omega)]; omega
      simp only [Tests.forUpto, h1, show decide ((i : Int) < N) = true from decide_eq_true (by omega)]
      rfl
    rw [e]
    exact (h i a s m (by omega) hI).bind fun a' s' m' hI' => ih (by omega) (i + 1) a' s' m' (by omega) (by omega) hN hI'

/-- A loop over `b.N` whose body always does the same. -/
theorem Runs.repeat {α : Type} {N fuel : Nat} {x : M α} (J K : α → St → Mem → Prop) (hf : fuel ≤ 2 ^ 63) (h0 : 0 < N) (hN : N < fuel)
    (h : ∀ a s m, J a s m → Runs x s m K) (hk : ∀ a s m, K a s m → J a s m) {a : α} {s : St} {m : Mem} (hJ : J a s m) :
    Runs (Tests.forUpto N (fun _ _ => x) fuel 0 a) s m K := by
  refine (Runs.forUpto (fun i a s m => J a s m ∧ (0 < i → K a s m)) hf ?_ N 0 a s m (by omega) hN (by omega)
    ⟨hJ, fun h => absurd h (by omega)⟩).mono fun a s' m' h => h.2 h0
  rintro i a s m - ⟨hJ, -⟩
  exact (h a s m hJ).mono fun _ _ _ hK => ⟨hk _ _ _ hK, fun _ => hK⟩

theorem Runs.bRun {α : Type} {W : World} {fuel : Nat} (hR : RoundsOk W fuel) {f : Nat → α → M α} (J K : α → St → Mem → Prop)
    (h : ∀ n a s m, 0 < n → n < fuel → J a s m → Runs (f n a) s m K) (hk : ∀ a s m, K a s m → J a s m) {a : α} {s : St} {m : Mem}
    (hJ : J a s m) : Runs (Tests.bRun W f a) s m K := by
  have h' : ∀ ns : List Nat, (∀ n ∈ ns, 0 < n ∧ n < fuel) → ∀ a s m, K a s m → Runs (eachN f ns a) s m K := by
    intro ns
    induction ns with
    | nil => exact fun _ a s m h => .pure h
    | cons n ns ih =>
      intro hn a s m hK
      refine (h n a s m (hn n List.mem_cons_self).1 (hn n List.mem_cons_self).2 (hk _ _ _ hK)).bind ?_
      exact ih fun n h => hn n (List.mem_cons_of_mem _ h)
  obtain ⟨hne, hall⟩ := hR s
  obtain ⟨n, ns, e⟩ : ∃ n ns, W.rounds s = n :: ns := by
    cases e : W.rounds s with
    | nil => exact absurd e hne
    | cons n ns => exact ⟨n, ns, rfl⟩
  rw [e] at hall
  have := (h n a s m (hall n List.mem_cons_self).1 (hall n List.mem_cons_self).2 hJ).bind
    (h' ns fun n h => hall n (List.mem_cons_of_mem _ h))
  obtain ⟨b, s', m', hq, hr⟩ := this
  refine ⟨b, s', m', hq, fun e' k => ?_⟩
  show run (eachN f (W.rounds s) a _ k s) m = _
  rw [e]
  exact hr _ _

section
variable {α β : Type} {d n : Nat} {fl sk : Bool} {bs : Int} {sn : Env} {m m' : Mem} {Q : β → St → Mem → Prop}

theorem Runs.setBytes {v : Int} {f : Unit → M β} (h : Runs (f ()) ⟨d, n, fl, sk, v, sn⟩ m Q) :
    Runs (setBytes v >>= f) ⟨d, n, fl, sk, bs, sn⟩ m Q := h

theorem Runs.setSink {x : Nat} {v : Val} {f : Unit → M β} (h : Runs (f ()) ⟨d, n, fl, sk, bs, (x, v) :: sn⟩ m Q) :
    Runs (setSink x v >>= f) ⟨d, n, fl, sk, bs, sn⟩ m Q := h

end

theorem Runs.sink_last {x : Nat} {v : Val} {s : St} {m : Mem} {Q : Unit → St → Mem → Prop}
    (h : Q () { s with sinks := (x, v) :: s.sinks } m) : Runs (Tests.setSink x v) s m Q := ⟨_, _, _, h, fun _ _ => rfl⟩

theorem Runs.call_last {α : Type} {p : Prog α} {s : St} {m m' : Mem} {a : α} {Q : α → St → Mem → Prop}
    (r : run p m = (.ok a, m')) (h : Q a s m') : Runs (Tests.call p) s m Q := by
  refine ⟨a, s, m', h, fun e k => ?_⟩
  show run (p.bind _) m = _
  rw [run_bind, r]

/-- A call that writes to block `b` only, again and again. -/
theorem Runs.again {α : Type} {N fuel : Nat} (hf : fuel ≤ 2 ^ 63) (h0 : 0 < N) (hN : N < fuel) {p : Prog α} {b : Block} {m : Mem}
    {P : α → Mem → Prop} (hp : ∀ m1, Same b m m1 → ∃ a m2, run p m1 = (.ok a, m2) ∧ Same b m1 m2 ∧ P a m2) (a : α) (s : St) :
    Runs (Tests.repeatSet fuel N (Tests.call p) a) s m (fun a s' m' => s' = s ∧ Same b m m' ∧ P a m') := by
  refine Runs.repeat (fun _ s' m' => s' = s ∧ Same b m m') _ hf h0 hN ?_ (fun _ _ _ h => ⟨h.1, h.2.1⟩) ⟨rfl, .refl _ _⟩
  rintro a s' m1 ⟨rfl, h1⟩
  obtain ⟨a', m2, r, f, hP⟩ := hp m1 h1
  exact .call_last r ⟨rfl, h1.trans f, hP⟩

theorem Runs.againN {N fuel : Nat} (hf : fuel ≤ 2 ^ 63) (h0 : 0 < N) (hN : N < fuel) {p : Prog Unit} {b : Block} {m : Mem}
    {P : Mem → Prop} (hp : ∀ m1, Same b m m1 → ∃ m2, run p m1 = (.ok (), m2) ∧ Same b m1 m2 ∧ P m2) (s : St) :
    Runs (Tests.repeatN fuel N (Tests.call p)) s m (fun _ s' m' => s' = s ∧ Same b m m' ∧ P m') :=
  Runs.again (P := fun _ => P) hf h0 hN (fun m1 h => let ⟨m2, h⟩ := hp m1 h; ⟨(), m2, h⟩) () s

theorem Runs.againI {α : Type} {N fuel : Nat} (hf : fuel ≤ 2 ^ 63) (h0 : 0 < N) (hN : N < fuel) {p : Prog α} {b : Block} {m : Mem}
    {P : Mem → Prop} (hp : ∀ m1, Same b m m1 → ∃ a m2, run p m1 = (.ok a, m2) ∧ Same b m1 m2 ∧ P m2) (s : St) :
    Runs (Tests.repeatN fuel N (ignore (Tests.call p))) s m (fun _ s' m' => s' = s ∧ Same b m m' ∧ P m') := by
  refine Runs.repeat (fun _ s' m' => s' = s ∧ Same b m m') _ hf h0 hN ?_ (fun _ _ _ h => ⟨h.1, h.2.1⟩) ⟨rfl, .refl _ _⟩
  rintro a s' m1 ⟨rfl, h1⟩
  obtain ⟨a', m2, r, f, hP⟩ := hp m1 h1
  exact (Runs.call_last (Q := fun _ s'' m' => s'' = s' ∧ m' = m2) r ⟨rfl, rfl⟩).bind fun _ s'' m' h => by
    obtain ⟨rfl, rfl⟩ := h
    exact .pure ⟨rfl, h1.trans f, hP⟩

/-! ## The numbers -/

theorem nums_length {W : World} (hW : W.Ok) (sorted : Bool) (d n : Nat) : (W.nums sorted d n).length = n := by
  have h : (drawn W d n).length = n := by simp [drawn]
  cases sorted
  · exact h
  · exact ((hW.sort _).length_eq).trans h

/-- `GenUint32` -/
theorem gen_run (W : World) (d : Nat) (b : Block) (m : Mem) {i : Int} (n : Nat) (hi : i = n) :
    ∃ m', run (genWords W d i b) m = (.ok ⟨b, 0, n, n⟩, m') ∧ Same b m m' ∧ wordsOf m' ⟨b, 0, n, n⟩ = W.nums false d n :=
  genWords_run W d b m n hi

/-- `SortUint32` -/
theorem sort_run {W : World} (hW : W.Ok) {b : Block} {d n : Nat} {m : Mem} (h : wordsOf m ⟨b, 0, n, n⟩ = W.nums false d n) :
    ∃ m', run (sortWords W ⟨b, 0, n, n⟩) m = (.ok (), m') ∧ Same b m m' ∧ wordsOf m' ⟨b, 0, n, n⟩ = W.nums true d n := by
  obtain ⟨m', r, f, w⟩ := sortWords_run hW ⟨b, 0, n, n⟩ m
  exact ⟨m', r, f, by rw [w, h]; rfl⟩

/-! ## Blocks of eight -/

/-- How a benchmark of blocks ends. -/
structure Ends (s : St) (sink : Nat) (v : Val) (s' : St) (m' : Mem) : Prop where
  failed : s'.failed = s.failed
  skipped : s'.skipped = s.skipped
  tables : TablesLoaded m'
  bytes : s'.bytes = 32
  sinks : s'.sinks = (sink, v) :: s.sinks

/-- What a benchmark does, from every state and memory (with the tables in place). -/
def Ran (x : M Unit) (Q : St → St → Mem → Prop) : Prop := ∀ s m, TablesLoaded m → Runs x s m (fun _ s' m' => Q s s' m')

/-- A benchmark of encoding: the control bits are those of the numbers. -/
def PutEnds (W : World) (dl sorted : Bool) (sink : Nat) (s s' : St) (m' : Mem) : Prop :=
  Ends s sink (.u16 (ctrl16 (diffs dl (W.nums sorted s.draws 8)))) s' m'

def PutVarintEnds (W : World) (dl sorted : Bool) (sink : Nat) (s s' : St) (m' : Mem) : Prop :=
  Ends s sink (.int (varintSize (diffs dl (W.nums sorted s.draws 8)))) s' m'

/-- A benchmark of decoding: the decoded numbers are those that were encoded. -/
def GetEnds (W : World) (sorted : Bool) (sink : Nat) (s s' : St) (m' : Mem) : Prop :=
  ∃ out : U32s, Ends s sink (.words out) s' m' ∧ wordsOf m' out = W.nums sorted s.draws 8

/-- The encoding loop. -/
theorem put_loop {fuel N : Nat} (hf : fuel ≤ 2 ^ 63) (h0 : 0 < N) (hN : N < fuel) {p : Prog U16} {k : Nat} {m : Mem}
    (hT : TablesLoaded m) {c : U16} (hp : ∀ m1, Same (.heap k) m m1 → ∃ m2, run p m1 = (.ok c, m2) ∧ Same (.heap k) m1 m2)
    {sink : Nat} {s0 : St} {d n : Nat} {sn : Env} (h : s0.sinks = sn) :
    Runs (repeatSet fuel N (call p) 0#16 >>= fun ctrl => setSink sink (.u16 ctrl)) ⟨d, n, s0.failed, s0.skipped, 32, sn⟩ m
      (fun _ s' m' => Ends s0 sink (.u16 c) s' m') := by
  refine (Runs.again (b := .heap k) (P := fun a _ => a = c) hf h0 hN ?_ 0#16 _).bind ?_
  · intro m1 h1
    obtain ⟨m2, r, f⟩ := hp m1 h1
    exact ⟨c, m2, r, f, rfl⟩
  · rintro a s' m' ⟨rfl, f, rfl⟩
    exact .sink_last ⟨rfl, rfl, f.tables hT, rfl, by rw [h]⟩

theorem putV_loop {fuel N : Nat} (hf : fuel ≤ 2 ^ 63) (h0 : 0 < N) (hN : N < fuel) {p : Prog Int} {k : Nat} {m : Mem}
    (hT : TablesLoaded m) {c : Int} (hp : ∀ m1, Same (.heap k) m m1 → ∃ m2, run p m1 = (.ok c, m2) ∧ Same (.heap k) m1 m2)
    {sink : Nat} {s0 : St} {d n : Nat} {sn : Env} (h : s0.sinks = sn) :
    Runs (repeatSet fuel N (call p) 0 >>= fun w => setSink sink (.int w)) ⟨d, n, s0.failed, s0.skipped, 32, sn⟩ m
      (fun _ s' m' => Ends s0 sink (.int c) s' m') := by
  refine (Runs.again (b := .heap k) (P := fun a _ => a = c) hf h0 hN ?_ 0 _).bind ?_
  · intro m1 h1
    obtain ⟨m2, r, f⟩ := hp m1 h1
    exact ⟨c, m2, r, f, rfl⟩
  · rintro a s' m' ⟨rfl, f, rfl⟩
    exact .sink_last ⟨rfl, rfl, f.tables hT, rfl, by rw [h]⟩

/-- The decoding loop. -/
theorem get_loop {fuel N : Nat} (hf : fuel ≤ 2 ^ 63) (h0 : 0 < N) (hN : N < fuel) {p : Prog Unit} {k : Nat} {m : Mem}
    (hT : TablesLoaded m) {out : U32s} {xs : List U32}
    (hp : ∀ m1, Same (.heap k) m m1 → ∃ m2, run p m1 = (.ok (), m2) ∧ Same (.heap k) m1 m2 ∧ wordsOf m2 out = xs)
    {sink : Nat} {s0 : St} {d n : Nat} {sn : Env} (h : s0.sinks = sn) :
    Runs (repeatN fuel N (call p) >>= fun _ => setSink sink (.words out)) ⟨d, n, s0.failed, s0.skipped, 32, sn⟩ m
      (fun _ s' m' => ∃ out : U32s, Ends s0 sink (.words out) s' m' ∧ wordsOf m' out = xs) := by
  refine (Runs.againN (b := .heap k) hf h0 hN hp _).bind ?_
  rintro a s' m' ⟨rfl, f, hw⟩
  exact .sink_last ⟨out, ⟨rfl, rfl, f.tables hT, rfl, by rw [h]⟩, hw⟩

theorem getV_loop {fuel N : Nat} (hf : fuel ≤ 2 ^ 63) (h0 : 0 < N) (hN : N < fuel) {p : Prog Int} {k : Nat} {m : Mem}
    (hT : TablesLoaded m) {out : U32s} {xs : List U32}
    (hp : ∀ m1, Same (.heap k) m m1 → ∃ a m2, run p m1 = (.ok a, m2) ∧ Same (.heap k) m1 m2 ∧ wordsOf m2 out = xs)
    {sink : Nat} {s0 : St} {d n : Nat} {sn : Env} (h : s0.sinks = sn) :
    Runs (repeatN fuel N (ignore (call p)) >>= fun _ => setSink sink (.words out)) ⟨d, n, s0.failed, s0.skipped, 32, sn⟩ m
      (fun _ s' m' => ∃ out : U32s, Ends s0 sink (.words out) s' m' ∧ wordsOf m' out = xs) := by
  refine (Runs.againI (b := .heap k) hf h0 hN hp _).bind ?_
  rintro a s' m' ⟨rfl, f, hw⟩
  exact .sink_last ⟨out, ⟨rfl, rfl, f.tables hT, rfl, by rw [h]⟩, hw⟩

section
variable {W : World} {fuel N : Nat} (hf : fuel ≤ 2 ^ 63) (h0 : 0 < N) (hN : N < fuel)
include hf h0 hN

theorem bPut8Fast_ran (hm : encodeMode W.cpu ≠ .normal) : Ran (bPut8Fast W fuel N) (PutEnds W false false n!"writeSinkA") := by
  rintro ⟨d, n, fl, sk, bs, sn⟩ m hT
  obtain ⟨m1, r1, f1⟩ := makeBytes_run (.heap n) m (i := 32) 32 rfl
  obtain ⟨m2, r2, f2, w2⟩ := gen_run W d (.heap (n + 1)) m1 (i := 8) 8 rfl
  have hT2 := f2.tables (f1.tables hT)
  refine .skipIf (decide_eq_false hm) (.makeB r1 (.gen r2 (.setBytes (put_loop hf h0 hN (k := n) hT2 (fun m4 f4 => ?_) rfl))))
  obtain ⟨m5, r5, f5, -⟩ := put8_run .fast (inn := ⟨.heap (n + 1), 0, 8, 8⟩) (k := n) (f4.tables hT2) ne! rfl
  rw [wordsOf_eq, f4.words ne!, ← wordsOf_eq, w2] at r5
  exact ⟨m5, (congrArg (run · m4) (encode_amd64 hm _)).trans r5, f5⟩

theorem bPut8DeltaFast_ran (hW : W.Ok) (hm : encodeMode W.cpu ≠ .normal) : Ran (bPut8DeltaFast W fuel N) (PutEnds W true true n!"writeSinkB") := by
  rintro ⟨d, n, fl, sk, bs, sn⟩ m hT
  obtain ⟨m1, r1, f1⟩ := makeBytes_run (.heap n) m (i := 32) 32 rfl
  obtain ⟨m2, r2, f2, w2⟩ := gen_run W d (.heap (n + 1)) m1 (i := 8) 8 rfl
  obtain ⟨m3, r3, f3, w3⟩ := sort_run hW w2
  have hT2 := f3.tables (f2.tables (f1.tables hT))
  refine .skipIf (decide_eq_false hm) (.makeB r1 (.gen r2 (.call r3 (.setBytes (put_loop hf h0 hN (k := n) hT2 (fun m4 f4 => ?_) rfl)))))
  obtain ⟨m5, r5, f5, -⟩ := put8Delta_run .fast (inn := ⟨.heap (n + 1), 0, 8, 8⟩) (k := n) (f4.tables hT2) ne! rfl 0
  rw [wordsOf_eq, f4.words ne!, ← wordsOf_eq, w3] at r5
  exact ⟨m5, (congrArg (run · m4) (encode_amd64 hm _)).trans r5, f5⟩

theorem bPut8Scalar_ran  : Ran (bPut8Scalar W fuel N) (PutEnds W false false n!"writeSinkC") := by
  rintro ⟨d, n, fl, sk, bs, sn⟩ m hT
  obtain ⟨m1, r1, f1⟩ := makeBytes_run (.heap n) m (i := 32) 32 rfl
  obtain ⟨m2, r2, f2, w2⟩ := gen_run W d (.heap (n + 1)) m1 (i := 8) 8 rfl
  have hT2 := f2.tables (f1.tables hT)
  refine .makeB r1 (.gen r2 (.setBytes (put_loop hf h0 hN (k := n) hT2 (fun m4 f4 => ?_) rfl)))
  obtain ⟨m5, r5, f5, -⟩ := put8_run .scalar (inn := ⟨.heap (n + 1), 0, 8, 8⟩) (k := n) (f4.tables hT2) ne! rfl
  rw [wordsOf_eq, f4.words ne!, ← wordsOf_eq, w2] at r5
  exact ⟨m5, r5, f5⟩

theorem bPut8DeltaScalar_ran (hW : W.Ok) : Ran (bPut8DeltaScalar W fuel N) (PutEnds W true true n!"writeSinkD") := by
  rintro ⟨d, n, fl, sk, bs, sn⟩ m hT
  obtain ⟨m1, r1, f1⟩ := makeBytes_run (.heap n) m (i := 32) 32 rfl
  obtain ⟨m2, r2, f2, w2⟩ := gen_run W d (.heap (n + 1)) m1 (i := 8) 8 rfl
  obtain ⟨m3, r3, f3, w3⟩ := sort_run hW w2
  have hT2 := f3.tables (f2.tables (f1.tables hT))
  refine .makeB r1 (.gen r2 (.call r3 (.setBytes (put_loop hf h0 hN (k := n) hT2 (fun m4 f4 => ?_) rfl))))
  obtain ⟨m5, r5, f5, -⟩ := put8Delta_run .scalar (inn := ⟨.heap (n + 1), 0, 8, 8⟩) (k := n) (f4.tables hT2) ne! rfl 0
  rw [wordsOf_eq, f4.words ne!, ← wordsOf_eq, w3] at r5
  exact ⟨m5, r5, f5⟩

theorem bPutVarint_ran (hW : W.Ok) : Ran (bPutVarint W fuel N) (PutVarintEnds W false false n!"writeSinkE") := by
  rintro ⟨d, n, fl, sk, bs, sn⟩ m hT
  obtain ⟨m1, r1, f1⟩ := makeBytes_run (.heap n) m (i := 40) 40 rfl
  obtain ⟨m2, r2, f2, w2⟩ := gen_run W d (.heap (n + 1)) m1 (i := 8) 8 rfl
  have hT2 := f2.tables (f1.tables hT)
  refine .makeB r1 (.gen r2 (.setBytes (putV_loop hf h0 hN (k := n) hT2 (fun m4 f4 => ?_) rfl)))
  have e4 : wordsOf m4 ⟨.heap (n + 1), 0, 8, 8⟩ = W.nums false d 8 := by
    rw [wordsOf_eq, f4.words ne!, ← wordsOf_eq, w2]
  have hr := (C32_room (diffs false (W.nums false d 8))).2
  have hp := (C32_putVarint (nums := ⟨.heap (n + 1), 0, 8, 8⟩) (out := ⟨.heap n, 0, 40, 40⟩) (m := m4) (.inl ne!)
    (by show 40 < _; decide)).1
  rw [e4] at hp
  obtain ⟨m5, r5, -, f5⟩ := hp (by
    refine Nat.le_trans hr ?_
    show 5 * (W.nums false d 8).length ≤ 40; rw [nums_length hW]; decide)
  exact ⟨m5, r5, fun q hq => f5 q fun h => hq h.1⟩

theorem bPutDeltaVarint_ran (hW : W.Ok) : Ran (bPutDeltaVarint W fuel N) (PutVarintEnds W true true n!"writeSinkF") := by
  rintro ⟨d, n, fl, sk, bs, sn⟩ m hT
  obtain ⟨m1, r1, f1⟩ := makeBytes_run (.heap n) m (i := 40) 40 rfl
  obtain ⟨m2, r2, f2, w2⟩ := gen_run W d (.heap (n + 1)) m1 (i := 8) 8 rfl
  obtain ⟨m3, r3, f3, w3⟩ := sort_run hW w2
  have hT2 := f3.tables (f2.tables (f1.tables hT))
  refine .makeB r1 (.gen r2 (.call r3 (.setBytes (putV_loop hf h0 hN (k := n) hT2 (fun m4 f4 => ?_) rfl))))
  have e4 : wordsOf m4 ⟨.heap (n + 1), 0, 8, 8⟩ = W.nums true d 8 := by
    rw [wordsOf_eq, f4.words ne!, ← wordsOf_eq, w3]
  have hr := (C32_room (diffs true (W.nums true d 8))).2
  have hp := (C32_putDeltaVarint (nums := ⟨.heap (n + 1), 0, 8, 8⟩) (out := ⟨.heap n, 0, 40, 40⟩) (m := m4) 0 (.inl ne!)
    (by show 40 < _; decide)).1
  rw [e4] at hp
  obtain ⟨m5, r5, -, f5⟩ := hp (by
    refine Nat.le_trans hr ?_
    show 5 * (delta 0 (W.nums true d 8)).length ≤ 40; rw [delta_length, nums_length hW]; decide)
  exact ⟨m5, r5, fun q hq => f5 q fun h => hq h.1⟩

theorem bGet8Fast_ran (hW : W.Ok) (hm : decodeMode W.cpu ≠ .normal) : Ran (bGet8Fast W fuel N) (GetEnds W false n!"readSinkA") := by
  rintro ⟨d, n, fl, sk, bs, sn⟩ m hT
  obtain ⟨m1, r1, f1⟩ := makeWords_run (.heap n) m (i := 8) 8 rfl
  obtain ⟨m2, r2, f2, w2⟩ := gen_run W d (.heap (n + 1)) m1 (i := 8) 8 rfl
  obtain ⟨m3, rfl⟩ : ∃ m3, m3 = m2 := ⟨m2, rfl⟩
  have w3 := w2
  have hT3 := f2.tables (f1.tables hT)
  obtain ⟨m4, r4, f4⟩ := makeBytes_run (.heap (n + 1 + 1)) m3 (i := 32) 32 rfl
  have hT4 := f4.tables hT3
  obtain ⟨m5, r5, f5, b5⟩ := put8_run .scalar (inn := ⟨.heap (n + 1), 0, 8, 8⟩) (k := n + 1 + 1) hT4 ne! rfl
  rw [wordsOf_eq, f4.words ne!, ← wordsOf_eq, w3] at r5 b5
  have hT5 := f5.tables hT4
  have hl := nums_length hW false d 8
  have hs := (sizeTwo_run (xs := (W.nums false d 8)) hT5 hl).2
  refine .skipIf (decide_eq_false hm) (.makeW r1 (.gen r2 (.makeB r4 (.call r5 (.setBytes (get_loop hf h0 hN (k := n) hT5 (fun m6 f6 => ?_) rfl))))))
  obtain ⟨m7, r7, f7, w7⟩ := get8_run .fast (inn := ⟨.heap (n + 1 + 1), 0, 32, 32⟩) (k := n) (f6.tables hT5) ne! hl
    (by rw [f6.bytes ne!]; exact take_of_prefix hs b5)
  exact ⟨m7, (congrArg (run · m6) (decode_amd64 hm _)).trans r7, f7, w7⟩

theorem bGet8DeltaFast_ran (hW : W.Ok) (hm : decodeMode W.cpu ≠ .normal) : Ran (bGet8DeltaFast W fuel N) (GetEnds W true n!"readSinkB") := by
  rintro ⟨d, n, fl, sk, bs, sn⟩ m hT
  obtain ⟨m1, r1, f1⟩ := makeWords_run (.heap n) m (i := 8) 8 rfl
  obtain ⟨m2, r2, f2, w2⟩ := gen_run W d (.heap (n + 1)) m1 (i := 8) 8 rfl
  obtain ⟨m3, r3, f3, w3⟩ := sort_run hW w2
  have hT3 := f3.tables (f2.tables (f1.tables hT))
  obtain ⟨m4, r4, f4⟩ := makeBytes_run (.heap (n + 1 + 1)) m3 (i := 32) 32 rfl
  have hT4 := f4.tables hT3
  obtain ⟨m5, r5, f5, b5⟩ := put8Delta_run .scalar (inn := ⟨.heap (n + 1), 0, 8, 8⟩) (k := n + 1 + 1) hT4 ne! rfl 0
  rw [wordsOf_eq, f4.words ne!, ← wordsOf_eq, w3] at r5 b5
  have hT5 := f5.tables hT4
  have hl := nums_length hW true d 8
  have hs := (sizeTwo_run (xs := (delta 0 (W.nums true d 8))) hT5 (by rw [delta_length, hl])).2
  refine .skipIf (decide_eq_false hm) (.makeW r1 (.gen r2 (.call r3 (.makeB r4 (.call r5 (.setBytes (get_loop hf h0 hN (k := n) hT5 (fun m6 f6 => ?_) rfl)))))))
  obtain ⟨m7, r7, f7, w7⟩ := get8Delta_run .fast (inn := ⟨.heap (n + 1 + 1), 0, 32, 32⟩) (k := n) (f6.tables hT5) ne! 0 hl
    (by rw [f6.bytes ne!]; exact take_of_prefix hs b5)
  exact ⟨m7, (congrArg (run · m6) (decode_amd64 hm _)).trans r7, f7, w7⟩

theorem bGet8Scalar_ran (hW : W.Ok) : Ran (bGet8Scalar W fuel N) (GetEnds W false n!"readSinkC") := by
  rintro ⟨d, n, fl, sk, bs, sn⟩ m hT
  obtain ⟨m1, r1, f1⟩ := makeWords_run (.heap n) m (i := 8) 8 rfl
  obtain ⟨m2, r2, f2, w2⟩ := gen_run W d (.heap (n + 1)) m1 (i := 8) 8 rfl
  obtain ⟨m3, rfl⟩ : ∃ m3, m3 = m2 := ⟨m2, rfl⟩
  have w3 := w2
  have hT3 := f2.tables (f1.tables hT)
  obtain ⟨m4, r4, f4⟩ := makeBytes_run (.heap (n + 1 + 1)) m3 (i := 32) 32 rfl
  have hT4 := f4.tables hT3
  obtain ⟨m5, r5, f5, b5⟩ := put8_run .scalar (inn := ⟨.heap (n + 1), 0, 8, 8⟩) (k := n + 1 + 1) hT4 ne! rfl
  rw [wordsOf_eq, f4.words ne!, ← wordsOf_eq, w3] at r5 b5
  have hT5 := f5.tables hT4
  have hl := nums_length hW false d 8
  have hs := (sizeTwo_run (xs := (W.nums false d 8)) hT5 hl).2
  refine .makeW r1 (.gen r2 (.makeB r4 (.call r5 (.setBytes (get_loop hf h0 hN (k := n) hT5 (fun m6 f6 => ?_) rfl)))))
  obtain ⟨m7, r7, f7, w7⟩ := get8_run .scalar (inn := ⟨.heap (n + 1 + 1), 0, 32, 32⟩) (k := n) (f6.tables hT5) ne! hl
    (by rw [f6.bytes ne!]; exact take_of_prefix hs b5)
  exact ⟨m7, r7, f7, w7⟩

theorem bGet8DeltaScalar_ran (hW : W.Ok) : Ran (bGet8DeltaScalar W fuel N) (GetEnds W true n!"readSinkD") := by
  rintro ⟨d, n, fl, sk, bs, sn⟩ m hT
  obtain ⟨m1, r1, f1⟩ := makeWords_run (.heap n) m (i := 8) 8 rfl
  obtain ⟨m2, r2, f2, w2⟩ := gen_run W d (.heap (n + 1)) m1 (i := 8) 8 rfl
  obtain ⟨m3, r3, f3, w3⟩ := sort_run hW w2
  have hT3 := f3.tables (f2.tables (f1.tables hT))
  obtain ⟨m4, r4, f4⟩ := makeBytes_run (.heap (n + 1 + 1)) m3 (i := 32) 32 rfl
  have hT4 := f4.tables hT3
  obtain ⟨m5, r5, f5, b5⟩ := put8Delta_run .scalar (inn := ⟨.heap (n + 1), 0, 8, 8⟩) (k := n + 1 + 1) hT4 ne! rfl 0
  rw [wordsOf_eq, f4.words ne!, ← wordsOf_eq, w3] at r5 b5
  have hT5 := f5.tables hT4
  have hl := nums_length hW true d 8
  have hs := (sizeTwo_run (xs := (delta 0 (W.nums true d 8))) hT5 (by rw [delta_length, hl])).2
  refine .makeW r1 (.gen r2 (.call r3 (.makeB r4 (.call r5 (.setBytes (get_loop hf h0 hN (k := n) hT5 (fun m6 f6 => ?_) rfl))))))
  obtain ⟨m7, r7, f7, w7⟩ := get8Delta_run .scalar (inn := ⟨.heap (n + 1 + 1), 0, 32, 32⟩) (k := n) (f6.tables hT5) ne! 0 hl
    (by rw [f6.bytes ne!]; exact take_of_prefix hs b5)
  exact ⟨m7, r7, f7, w7⟩

theorem bGetVarint_ran (hW : W.Ok) : Ran (bGetVarint W fuel N) (GetEnds W false n!"readSinkE") := by
  rintro ⟨d, n, fl, sk, bs, sn⟩ m hT
  obtain ⟨m1, r1, f1⟩ := makeWords_run (.heap n) m (i := 8) 8 rfl
  obtain ⟨m2, r2, f2⟩ := makeBytes_run (.heap (n + 1)) m1 (i := 40) 40 rfl
  obtain ⟨m3, r3, f3, w3⟩ := gen_run W d (.heap (n + 1 + 1)) m2 (i := 8) 8 rfl
  have hT3 := f3.tables (f2.tables (f1.tables hT))
  have hl := nums_length hW false d 8
  have hr := (C32_room (W.nums false d 8)).2
  rw [hl] at hr
  have hp := (C32_putVarint (nums := ⟨.heap (n + 1 + 1), 0, 8, 8⟩) (out := ⟨.heap (n + 1), 0, 40, 40⟩) (m := m3) (.inl ne!)
    (by show 40 < _; decide)).1
  rw [w3] at hp
  obtain ⟨m4, r4, b4, f4⟩ := hp hr
  have f4 : Same (.heap (n + 1)) m3 m4 := fun q hq => f4 q fun h => hq h.1
  have hT4 := f4.tables hT3
  refine .makeW r1 (.makeB r2 (.gen r3 (.call r4 (.upto (upto_run m4 _ rfl hr)
    (.setBytes (getV_loop hf h0 hN (k := n) hT4 (fun m6 f6 => ?_) rfl))))))
  obtain ⟨m7, r7, w7, f7⟩ := C32_getVarint (m := m6) (out := ⟨.heap n, 0, 8, 8⟩) (xs := (W.nums false d 8))
    (data := ⟨.heap (n + 1), 0, varintSize (W.nums false d 8), 40⟩) (.inl ne!)
    (by simp only; omega) ((f6.bytes ne!).trans b4) (by rw [hl]; exact Nat.le_refl _)
  rw [hl] at w7
  exact ⟨_, m7, r7, fun q hq => f7 q fun h => hq h.1, w7⟩

theorem bGetDeltaVarint_ran (hW : W.Ok) : Ran (bGetDeltaVarint W fuel N) (GetEnds W false n!"readSinkF") := by
  rintro ⟨d, n, fl, sk, bs, sn⟩ m hT
  obtain ⟨m1, r1, f1⟩ := makeWords_run (.heap n) m (i := 8) 8 rfl
  obtain ⟨m2, r2, f2⟩ := makeBytes_run (.heap (n + 1)) m1 (i := 40) 40 rfl
  obtain ⟨m3, r3, f3, w3⟩ := gen_run W d (.heap (n + 1 + 1)) m2 (i := 8) 8 rfl
  have hT3 := f3.tables (f2.tables (f1.tables hT))
  have hl := nums_length hW false d 8
  have hr := (C32_room (delta 0 (W.nums false d 8))).2
  rw [delta_length, hl] at hr
  have hp := (C32_putDeltaVarint (nums := ⟨.heap (n + 1 + 1), 0, 8, 8⟩) (out := ⟨.heap (n + 1), 0, 40, 40⟩) (m := m3) 0 (.inl ne!)
    (by show 40 < _; decide)).1
  rw [w3] at hp
  obtain ⟨m4, r4, b4, f4⟩ := hp hr
  have f4 : Same (.heap (n + 1)) m3 m4 := fun q hq => f4 q fun h => hq h.1
  have hT4 := f4.tables hT3
  refine .makeW r1 (.makeB r2 (.gen r3 (.call r4 (.upto (upto_run m4 _ rfl hr)
    (.setBytes (getV_loop hf h0 hN (k := n) hT4 (fun m6 f6 => ?_) rfl))))))
  obtain ⟨m7, r7, w7, f7⟩ := C32_getDeltaVarint (m := m6) (out := ⟨.heap n, 0, 8, 8⟩) (ds := (delta 0 (W.nums false d 8)))
    (data := ⟨.heap (n + 1), 0, varintSize (delta 0 (W.nums false d 8)), 40⟩) 0 (.inl ne!)
    (by simp only; omega) ((f6.bytes ne!).trans b4) (by rw [delta_length, hl]; exact Nat.le_refl _)
  rw [delta_length, hl, undelta_delta] at w7
  exact ⟨_, m7, r7, fun q hq => f7 q fun h => hq h.1, w7⟩

end

/-! ## Copying -/

/-- `BenchmarkMemCopy8Uint32` ends with a copy of the numbers in the second of its two slices. -/
structure CopyEnds (W : World) (s s' : St) (m' : Mem) : Prop where
  failed : s'.failed = s.failed
  skipped : s'.skipped = s.skipped
  tables : TablesLoaded m'
  bytes : s'.bytes = 32
  sinks : s'.sinks = s.sinks
  words : wordsOf m' ⟨.heap (s.next + 1), 0, 8, 8⟩ = W.nums false s.draws 8

theorem copyWords_run {dst src : U32s} {m : Mem} (hl : src.len = dst.len) :
    ∃ m', run (copyWords dst src) m = (.ok (), m') ∧ Same dst.blk m m' ∧ wordsOf m' dst = wordsOf m src := by
  obtain ⟨a, m', r, f, hw⟩ := run_only (wp_putWords (s := dst) (wordsOf m src) (i := 0) (m := m)
    (Q := fun _ m' => wordsOf m' dst = wordsOf m src) (by rw [wordsOf_length]; omega)
    fun m2 _ hw => by rw [Nat.zero_add, wordsOf_length, hl] at hw; rw [wordsOf_eq, hw]; simp [wordsN])
  refine ⟨m', ?_, f, hw⟩
  unfold copyWords
  rw [Prog.bind_eq, run_bind, ← hl, Nat.min_self, getWords_all]
  exact r

theorem setW_run {s : U32s} {m : Mem} (i : Nat) (h : i < s.len) (v : U32) :
    ∃ m', run (setW s i v) m = (.ok (), m') ∧ Same s.blk m m' ∧ wordsN m' s (i + 1) = wordsN m s i ++ [v] := by
  obtain ⟨a, m', r, f, hw⟩ := run_only (p := setW s i v) (b := s.blk) (m := m)
    (Q := fun _ m' => wordsN m' s (i + 1) = wordsN m s i ++ [v])
    (wp_setW_ok i rfl h (fun k _ => rfl) (by
      rw [wordsN_succ, wordAt_set32_self, wordsN_congr' (m' := m)]
      exact fun q hq => set32_other _ _ _ _ _ fun h => by have := hq.2.2; omega))
  exact ⟨m', r, f, hw⟩

theorem bMemCopy_ran {W : World} {fuel N : Nat} (hf : fuel ≤ 2 ^ 63) (h0 : 0 < N) (hN : N < fuel) (h8 : 8 < fuel) :
    Ran (bMemCopy W fuel N) (CopyEnds W) := by
  rintro ⟨d, n, fl, sk, bs, sn⟩ m hT
  obtain ⟨m1, r1, f1⟩ := makeWords_run (.heap n) m (i := 8) 8 rfl
  have hT1 := f1.tables hT
  refine .makeW r1 ((Runs.forUpto (N := 8) (fun i _ s' m' => s' = ⟨d + 2 * i, n + 1, fl, sk, bs, sn⟩ ∧ TablesLoaded m' ∧
    wordsN m' ⟨.heap n, 0, 8, 8⟩ i = W.nums false d i) hf ?_ 8 0 () _ m1 (by omega) h8 (by decide) ⟨rfl, hT1, rfl⟩).bind ?_)
  · rintro i a s m2 hi ⟨rfl, hT2, hw⟩
    obtain ⟨m3, r3, f3, w3⟩ := setW_run (s := ⟨.heap n, 0, 8, 8⟩) (m := m2) i hi (W.rand (d + 2 * i))
    refine Runs.call_last (s := ⟨d + 2 * i + 2, n + 1, fl, sk, bs, sn⟩) r3 ⟨rfl, Same.tables f3 hT2, ?_⟩
    rw [w3, hw]
    show drawn W d i ++ _ = drawn W d (i + 1)
    rw [drawn, drawn, List.range_succ, List.map_append]
    rfl
  · rintro _ s m2 ⟨rfl, hT2, hw⟩
    obtain ⟨m3, r3, f3⟩ := makeWords_run (.heap (n + 1)) m2 (i := 8) 8 rfl
    refine .makeW r3 (.setBytes ((Runs.againN (b := .heap (n + 1))
      (P := fun m' => wordsOf m' ⟨.heap (n + 1), 0, 8, 8⟩ = W.nums false d 8) hf h0 hN (fun m4 f4 => ?_) _).mono ?_))
    · obtain ⟨m5, r5, f5, w5⟩ := copyWords_run (dst := ⟨.heap (n + 1), 0, 8, 8⟩) (src := ⟨.heap n, 0, 8, 8⟩) (m := m4) rfl
      refine ⟨m5, r5, f5, ?_⟩
      rw [w5, wordsOf_eq, f4.words ne!, f3.words ne!]
      exact hw
    · rintro _ s' m' ⟨rfl, f, hw'⟩
      exact ⟨rfl, rfl, f.tables (f3.tables hT2), rfl, rfl, hw'⟩

/-! ## Streams -/

/-- How the part of a stream benchmark for `count` numbers ends: `P` is said of the last assignment to the sink. -/
structure PartEnds (s : St) (count : Nat) (P : Val → Mem → Prop) (sink : Nat) (s' : St) (m' : Mem) : Prop where
  failed : s'.failed = s.failed
  skipped : s'.skipped = s.skipped
  draws : s'.draws = s.draws + 2 * count
  tables : TablesLoaded m'
  bytes : s'.bytes = 4 * count
  sinks : ∃ v, s'.sinks.head? = some (sink, v) ∧ P v m'

/-- `1 + 10 + … `, with `i` terms. -/
def ones : Nat → Nat
  | 0 => 0
  | i + 1 => ones i + 10 ^ i

theorem pow10Int_eq (i : Nat) (h : i < 8) {β : Type} (f : Int → M β) : (pow10Int i >>= f) = f ((10 ^ i : Nat) : Int) := by
  have e : pow10Int i = pure ((10 ^ i : Nat) : Int) := by
    have h1 : decide (0 ≤ (i : Int) ∧ (i : Int) < 19) = true := decide_eq_true ⟨by omega, by omega⟩
    simp only [pow10Int, h1, Int.toNat_natCast]
    have h2 : ((10 : Int) ^ i) = ((10 ^ i : Nat) : Int) := by simp
    rw [h2]
    rfl
  rw [e]; rfl

/-- How a stream benchmark ends. -/
structure StreamEnds (P : Nat → Nat → Val → Mem → Prop) (sink : Nat) (s s' : St) (m' : Mem) : Prop where
  failed : s'.failed = s.failed
  skipped : s'.skipped = s.skipped
  tables : TablesLoaded m'
  bytes : s'.bytes = 4 * 10 ^ 7
  sinks : ∃ v, s'.sinks.head? = some (sink, v) ∧ P (s.draws + 2 * 1111111) (10 ^ 7) v m'

theorem Runs.tens {fuel : Nat} (hf : fuel ≤ 2 ^ 63) (h8 : 8 < fuel) {f : Int → M Unit} {P : Nat → Nat → Val → Mem → Prop}
    {sink : Nat} (h : ∀ c : Nat, c ≤ 10 ^ 7 → ∀ s m, TablesLoaded m →
      Runs (f c) s m (fun _ s' m' => PartEnds s c (P s.draws c) sink s' m')) :
    ∀ s m, TablesLoaded m → Runs (tens fuel f) s m (fun _ s' m' => StreamEnds P sink s s' m') := by
  intro s m hT
  refine (Runs.forUpto (N := 8) (fun i _ s' m' => s'.failed = s.failed ∧ s'.skipped = s.skipped ∧ TablesLoaded m' ∧
    s'.draws = s.draws + 2 * ones i ∧ ∀ j, i = j + 1 → s'.bytes = 4 * (10 ^ j : Nat) ∧
      ∃ v, s'.sinks.head? = some (sink, v) ∧ P (s.draws + 2 * ones j) (10 ^ j) v m') hf ?_ 8 0 () s m (by omega) h8 (by decide)
    ⟨rfl, rfl, hT, rfl, fun j hj => by omega⟩).mono ?_
  · rintro i a s1 m1 hi ⟨h1, h2, h3, h4, -⟩
    show Runs (pow10Int i >>= f) _ _ _
    rw [pow10Int_eq i hi]
    refine (h (10 ^ i) (Nat.pow_le_pow_right (by decide) (by omega)) s1 m1 h3).mono fun _ s' m' hp => ?_
    refine ⟨hp.failed.trans h1, hp.skipped.trans h2, hp.tables, ?_, ?_⟩
    · rw [hp.draws, h4, ones]; omega
    · intro j hj
      obtain rfl : i = j := by omega
      refine ⟨hp.bytes, ?_⟩
      rw [← h4]
      exact hp.sinks
  · rintro _ s' m' ⟨h1, h2, h3, h4, h5⟩
    obtain ⟨h6, h7⟩ := h5 7 rfl
    exact ⟨h1, h2, h3, h6, h7⟩

/-- The decoding part of a stream benchmark. -/
theorem read_rounds {W : World} {fuel : Nat} (hR : RoundsOk W fuel) {x : M Unit} {k : Nat} {m : Mem}
    {P : Mem → Prop} (hx : ∀ N s, 0 < N → N < fuel → ∀ m0, Same (.heap k) m m0 →
      Runs (repeatN fuel N x) s m0 (fun _ s' m' => s' = s ∧ Same (.heap k) m0 m' ∧ P m'))
    {sink : Nat} {v : Val} {b : Int} {s : St} :
    Runs (bRun W (fun n _ => do
      setBytes b
      repeatN fuel n x
      setSink sink v) ()) s m (fun _ s' m' => s'.failed = s.failed ∧ s'.skipped = s.skipped ∧ s'.draws = s.draws ∧ s'.bytes = b ∧
        s'.sinks.head? = some (sink, v) ∧ Same (.heap k) m m' ∧ P m') := by
  refine Runs.bRun hR (fun _ s' m' => s'.failed = s.failed ∧ s'.skipped = s.skipped ∧ s'.draws = s.draws ∧ Same (.heap k) m m') _ ?_
    (fun _ s' m' h => ⟨h.1, h.2.1, h.2.2.1, h.2.2.2.2.2.1⟩) ⟨rfl, rfl, rfl, .refl _ _⟩
  rintro N a ⟨d, n, fl, sk, bs, sn⟩ m1 h0 hN ⟨h1, h2, h3, h4⟩
  refine .setBytes ((hx N _ h0 hN m1 h4).bind ?_)
  rintro _ s' m2 ⟨rfl, f2, hP⟩
  exact .sink_last ⟨h1, h2, h3, rfl, rfl, h4.trans f2, hP⟩

/-- A call that allocates its result, again and again. -/
theorem write_rounds {W : World} {fuel : Nat} (hf : fuel ≤ 2 ^ 63) (hR : RoundsOk W fuel) {p : Block → Prog Bytes} {nums : U32s} {j : Nat}
    {xs : List U32} {ys : List Byte}
    (hp : ∀ k m0, j < k → TablesLoaded m0 → wordsOf m0 nums = xs → ∃ m' l c, run (p (.heap k)) m0 = (.ok ⟨.heap k, 0, l, c⟩, m') ∧
      Same (.heap k) m0 m' ∧ bytesOf m' ⟨.heap k, 0, l, c⟩ = ys) (hj : nums.blk = .heap j)
    {sink : Nat} {b : Int} {s : St} {m : Mem} (hT : TablesLoaded m) (hx : wordsOf m nums = xs) (hn : j < s.next) :
    Runs (bRun W (fun n _ => do
      setBytes b
      let stream ← repeatSet fuel n (ofBytes (alloc p)) .nil
      setSink sink stream.settle) ()) s m (fun _ s' m' => s'.failed = s.failed ∧ s'.skipped = s.skipped ∧ s'.draws = s.draws ∧
        TablesLoaded m' ∧ s'.bytes = b ∧ ∃ v, s'.sinks.head? = some (sink, v) ∧ ∃ stream, v = .bytes stream ∧ bytesOf m' stream = ys) := by
  refine (Runs.bRun hR (fun _ s' m' => (s'.failed = s.failed ∧ s'.skipped = s.skipped ∧ s'.draws = s.draws ∧
    TablesLoaded m') ∧ wordsOf m' nums = xs ∧ j < s'.next) (fun _ s' m' => ((s'.failed = s.failed ∧ s'.skipped = s.skipped ∧ s'.draws = s.draws ∧
    TablesLoaded m') ∧ wordsOf m' nums = xs ∧ j < s'.next) ∧ s'.bytes = b ∧ ∃ v, s'.sinks.head? = some (sink, v) ∧
      ∃ stream, v = .bytes stream ∧ bytesOf m' stream = ys) ?_ (fun _ _ _ h => h.1) ⟨⟨rfl, rfl, rfl, hT⟩, hx, hn⟩).mono
    fun _ _ _ h => ⟨h.1.1.1, h.1.1.2.1, h.1.1.2.2.1, h.1.1.2.2.2, h.2⟩
  rintro N a ⟨d, n, fl, sk, bs, sn⟩ m1 h0 hN ⟨⟨h1, h2, h3, h4⟩, h5, h6⟩
  refine .setBytes ((Runs.repeat (a := Val.nil) (x := ofBytes (alloc p)) (s := ⟨d, n, fl, sk, b, sn⟩) (fun _ s' m' => ((s'.failed = s.failed ∧ s'.skipped = s.skipped ∧ s'.draws = s.draws ∧
    TablesLoaded m') ∧ wordsOf m' nums = xs ∧ j < s'.next) ∧ s'.bytes = b) (fun v s' m' => (((s'.failed = s.failed ∧
    s'.skipped = s.skipped ∧ s'.draws = s.draws ∧ TablesLoaded m') ∧ wordsOf m' nums = xs ∧ j < s'.next) ∧ s'.bytes = b) ∧
      ∃ stream, v = Val.bytes stream ∧ bytesOf m' stream = ys) hf h0 hN ?_ (fun _ _ _ h => h.1)
    ⟨⟨⟨h1, h2, h3, h4⟩, h5, h6⟩, rfl⟩).bind ?_)
  · rintro v ⟨d', n', fl', sk', bs', sn'⟩ m2 ⟨⟨⟨g1, g2, g3, g4⟩, g5, g6⟩, g7⟩
    obtain ⟨m3, l, c, r3, f3, b3⟩ := hp n' m2 g6 g4 g5
    have hne : nums.blk ≠ .heap n' := by rw [hj]; intro h; injection h with h; simp only at g6; omega
    refine .alloc r3 (.pure ⟨⟨⟨⟨g1, g2, g3, f3.tables g4⟩, ?_, Nat.lt_succ_of_lt g6⟩, g7⟩, _, rfl, b3⟩)
    rw [wordsOf_eq, f3.words hne, ← wordsOf_eq, g5]
  · rintro v s' m2 ⟨⟨g, g7⟩, stream, rfl, hb⟩
    exact .sink_last ⟨g, g7, _, rfl, stream, rfl, hb⟩

/-- The loops over `PutVarint`. -/
theorem size_rounds {W : World} {fuel : Nat} (hf : fuel ≤ 2 ^ 63) (hR : RoundsOk W fuel) {p : Prog Int} {k : Nat} {m : Mem} {c : Int}
    (hp : ∀ m1, Same (.heap k) m m1 → ∃ m2, run p m1 = (.ok c, m2) ∧ Same (.heap k) m1 m2) {sink : Nat} {b : Int} {s : St} :
    Runs (ignore (bRun W (fun n written => do
      setBytes b
      let written ← repeatSet fuel n (call p) written
      setSink sink (.int written)
      return written) 0)) s m (fun _ s' m' => s'.failed = s.failed ∧ s'.skipped = s.skipped ∧ s'.draws = s.draws ∧
        s'.bytes = b ∧ s'.sinks.head? = some (sink, .int c) ∧ Same (.heap k) m m') := by
  refine (Runs.bRun hR (fun _ s' m' => s'.failed = s.failed ∧ s'.skipped = s.skipped ∧ s'.draws = s.draws ∧ Same (.heap k) m m')
    (fun _ s' m' => s'.failed = s.failed ∧ s'.skipped = s.skipped ∧ s'.draws = s.draws ∧
        s'.bytes = b ∧ s'.sinks.head? = some (sink, .int c) ∧ Same (.heap k) m m') ?_
    (fun _ s' m' h => ⟨h.1, h.2.1, h.2.2.1, h.2.2.2.2.2⟩) ⟨rfl, rfl, rfl, .refl _ _⟩).bind fun _ _ _ h => .pure h
  rintro N a ⟨d, n, fl, sk, bs, sn⟩ m1 h0 hN ⟨h1, h2, h3, h4⟩
  refine .setBytes ((Runs.again (b := .heap k) (P := fun a _ => a = c) hf h0 hN (fun m2 f2 => ?_) a _).bind ?_)
  · obtain ⟨m3, r3, f3⟩ := hp m2 (h4.trans f2)
    exact ⟨c, m3, r3, f3, rfl⟩
  · rintro _ s' m2 ⟨rfl, f2, rfl⟩
    exact .setSink (.pure ⟨h1, h2, h3, rfl, rfl, h4.trans f2⟩)

/-- The decoded numbers are those that were encoded. -/
def ReadDone (W : World) (sorted : Bool) (d c : Nat) (v : Val) (m' : Mem) : Prop :=
  ∃ out : U32s, v = .words out ∧ wordsOf m' out = W.nums sorted d c

/-- The stream is the encoding of the numbers. -/
def WriteDone (W : World) (dl sorted : Bool) (d c : Nat) (v : Val) (m' : Mem) : Prop :=
  ∃ stream : Bytes, v = .bytes stream ∧ bytesOf m' stream = encode (diffs dl (W.nums sorted d c))

/-- The size of the encoding. -/
def SizeDone (W : World) (dl sorted : Bool) (d c : Nat) (v : Val) (_ : Mem) : Prop :=
  v = .int (varintSize (diffs dl (W.nums sorted d c)))

theorem bytes_count {c : Nat} (hc : c ≤ 10 ^ 7) : int64 ((c : Int) * 4) = 4 * c := by
  rw [int64_eq (by omega) (by omega)]; omega

section
variable {W : World} {fuel : Nat} (hW : W.Ok) (hf : fuel ≤ 2 ^ 63) (h8 : 8 < fuel) (hR : RoundsOk W fuel)
include hW hf h8 hR

theorem bReadAllFast_ran (hm : decodeMode W.cpu ≠ .normal) : Ran (bReadAllFast W fuel) (StreamEnds (ReadDone W false) n!"readSinkA") := by
  rintro ⟨d, n, fl, sk, bs, sn⟩ m hT
  refine .skipIf (decide_eq_false hm) (Runs.tens hf h8 ?_ _ _ hT)
  rintro c hc ⟨d, n, fl, sk, bs, sn⟩ m hT
  obtain ⟨m1, r1, f1, w1⟩ := gen_run W d (.heap n) m (i := c) c rfl
  obtain ⟨m2, rfl⟩ : ∃ m2, m2 = m1 := ⟨m1, rfl⟩
  have w2 := w1
  have hT2 := f1.tables hT
  obtain ⟨m3, l, cp, r3, hl, f3, b3⟩ := write_run .scalar (j := n) (k := n + 1) (n := c) hT2 (by omega) (by omega)
  rw [w2] at b3
  obtain ⟨m4, r4, f4⟩ := makeWords_run (.heap (n + 1 + 1)) m3 (i := c) c rfl
  have hT4 := f4.tables (f3.tables hT2)
  refine .gen r1 (.alloc r3 (.makeW r4 ((read_rounds hR (k := n + 1 + 1)
    (P := fun m' => wordsOf m' ⟨.heap (n + 1 + 1), 0, c, c⟩ = (W.nums false d c)) (fun N s h0 hN m5 f5 => Runs.againN hf h0 hN (fun m6 f6 => ?_) s)).mono ?_)))
  · obtain ⟨m7, r7, f7, w7⟩ := read_run .fast (n := c) (j := n + 1) (k := n + 1 + 1) (f6.tables (f5.tables hT4)) (by omega) (by omega)
      hl (i := c) rfl (nums_length hW false d c) ((f6.bytes ne!).trans ((f5.bytes ne!).trans ((f4.bytes ne!).trans b3)))
    exact ⟨m7, (congrArg (run · m6) (decode_amd64 hm _)).trans r7, f7, w7⟩
  · rintro _ s' m' ⟨h1, h2, h3, h4, h5, h6, h7⟩
    exact ⟨h1, h2, h3, h6.tables hT4, h4.trans (bytes_count hc), _, h5, _, rfl, h7⟩

theorem bReadAllDeltaFast_ran (hm : decodeMode W.cpu ≠ .normal) : Ran (bReadAllDeltaFast W fuel) (StreamEnds (ReadDone W true) n!"readSinkB") := by
  rintro ⟨d, n, fl, sk, bs, sn⟩ m hT
  refine .skipIf (decide_eq_false hm) (Runs.tens hf h8 ?_ _ _ hT)
  rintro c hc ⟨d, n, fl, sk, bs, sn⟩ m hT
  obtain ⟨m1, r1, f1, w1⟩ := gen_run W d (.heap n) m (i := c) c rfl
  obtain ⟨m2, r2, f2, w2⟩ := sort_run hW w1
  have hT2 := f2.tables (f1.tables hT)
  obtain ⟨m3, l, cp, r3, hl, f3, b3⟩ := writeDelta_run .scalar (j := n) (k := n + 1) (n := c) hT2 (by omega) (by omega) 0
  rw [w2] at b3
  obtain ⟨m4, r4, f4⟩ := makeWords_run (.heap (n + 1 + 1)) m3 (i := c) c rfl
  have hT4 := f4.tables (f3.tables hT2)
  refine .gen r1 (.call r2 (.alloc r3 (.makeW r4 ((read_rounds hR (k := n + 1 + 1)
    (P := fun m' => wordsOf m' ⟨.heap (n + 1 + 1), 0, c, c⟩ = (W.nums true d c)) (fun N s h0 hN m5 f5 => Runs.againN hf h0 hN (fun m6 f6 => ?_) s)).mono ?_))))
  · obtain ⟨m7, r7, f7, w7⟩ := readDelta_run .fast (n := c) (j := n + 1) (k := n + 1 + 1) (f6.tables (f5.tables hT4)) (by omega) (by omega)
      hl (i := c) rfl 0 (nums_length hW true d c) ((f6.bytes ne!).trans ((f5.bytes ne!).trans ((f4.bytes ne!).trans b3)))
    exact ⟨m7, (congrArg (run · m6) (decode_amd64 hm _)).trans r7, f7, w7⟩
  · rintro _ s' m' ⟨h1, h2, h3, h4, h5, h6, h7⟩
    exact ⟨h1, h2, h3, h6.tables hT4, h4.trans (bytes_count hc), _, h5, _, rfl, h7⟩

theorem bReadAllScalar_ran : Ran (bReadAllScalar W fuel) (StreamEnds (ReadDone W true) n!"readSinkC") := by
  refine Runs.tens hf h8 ?_
  rintro c hc ⟨d, n, fl, sk, bs, sn⟩ m hT
  obtain ⟨m1, r1, f1, w1⟩ := gen_run W d (.heap n) m (i := c) c rfl
  obtain ⟨m2, r2, f2, w2⟩ := sort_run hW w1
  have hT2 := f2.tables (f1.tables hT)
  obtain ⟨m3, l, cp, r3, hl, f3, b3⟩ := write_run .scalar (j := n) (k := n + 1) (n := c) hT2 (by omega) (by omega)
  rw [w2] at b3
  obtain ⟨m4, r4, f4⟩ := makeWords_run (.heap (n + 1 + 1)) m3 (i := c) c rfl
  have hT4 := f4.tables (f3.tables hT2)
  refine .gen r1 (.call r2 (.alloc r3 (.makeW r4 ((read_rounds hR (k := n + 1 + 1)
    (P := fun m' => wordsOf m' ⟨.heap (n + 1 + 1), 0, c, c⟩ = (W.nums true d c)) (fun N s h0 hN m5 f5 => Runs.againN hf h0 hN (fun m6 f6 => ?_) s)).mono ?_))))
  · obtain ⟨m7, r7, f7, w7⟩ := read_run .scalar (n := c) (j := n + 1) (k := n + 1 + 1) (f6.tables (f5.tables hT4)) (by omega) (by omega)
      hl (i := c) rfl (nums_length hW true d c) ((f6.bytes ne!).trans ((f5.bytes ne!).trans ((f4.bytes ne!).trans b3)))
    exact ⟨m7, r7, f7, w7⟩
  · rintro _ s' m' ⟨h1, h2, h3, h4, h5, h6, h7⟩
    exact ⟨h1, h2, h3, h6.tables hT4, h4.trans (bytes_count hc), _, h5, _, rfl, h7⟩

theorem bReadAllDeltaScalar_ran : Ran (bReadAllDeltaScalar W fuel) (StreamEnds (ReadDone W true) n!"readSinkD") := by
  refine Runs.tens hf h8 ?_
  rintro c hc ⟨d, n, fl, sk, bs, sn⟩ m hT
  obtain ⟨m1, r1, f1, w1⟩ := gen_run W d (.heap n) m (i := c) c rfl
  obtain ⟨m2, r2, f2, w2⟩ := sort_run hW w1
  have hT2 := f2.tables (f1.tables hT)
  obtain ⟨m3, l, cp, r3, hl, f3, b3⟩ := writeDelta_run .scalar (j := n) (k := n + 1) (n := c) hT2 (by omega) (by omega) 0
  rw [w2] at b3
  obtain ⟨m4, r4, f4⟩ := makeWords_run (.heap (n + 1 + 1)) m3 (i := c) c rfl
  have hT4 := f4.tables (f3.tables hT2)
  refine .gen r1 (.call r2 (.alloc r3 (.makeW r4 ((read_rounds hR (k := n + 1 + 1)
    (P := fun m' => wordsOf m' ⟨.heap (n + 1 + 1), 0, c, c⟩ = (W.nums true d c)) (fun N s h0 hN m5 f5 => Runs.againN hf h0 hN (fun m6 f6 => ?_) s)).mono ?_))))
  · obtain ⟨m7, r7, f7, w7⟩ := readDelta_run .scalar (n := c) (j := n + 1) (k := n + 1 + 1) (f6.tables (f5.tables hT4)) (by omega) (by omega)
      hl (i := c) rfl 0 (nums_length hW true d c) ((f6.bytes ne!).trans ((f5.bytes ne!).trans ((f4.bytes ne!).trans b3)))
    exact ⟨m7, r7, f7, w7⟩
  · rintro _ s' m' ⟨h1, h2, h3, h4, h5, h6, h7⟩
    exact ⟨h1, h2, h3, h6.tables hT4, h4.trans (bytes_count hc), _, h5, _, rfl, h7⟩

theorem bReadVarint_ran : Ran (bReadVarint W fuel) (StreamEnds (ReadDone W true) n!"readSinkB") := by
  refine Runs.tens hf h8 ?_
  rintro c hc ⟨d, n, fl, sk, bs, sn⟩ m hT
  have e5 : int64 (5 * (c : Int)) = ((5 * c : Nat) : Int) := by rw [int64_eq (by omega) (by omega)]; omega
  simp only [e5]
  obtain ⟨m1, r1, f1⟩ := makeWords_run (.heap n) m (i := c) c rfl
  obtain ⟨m2, r2, f2⟩ := makeBytes_run (.heap (n + 1)) m1 (i := (5 * c : Nat)) (5 * c) rfl
  obtain ⟨m3, r3, f3, w3⟩ := gen_run W d (.heap (n + 1 + 1)) m2 (i := c) c rfl
  obtain ⟨m4, r4, f4, w4⟩ := sort_run hW w3
  have hT4 := f4.tables (f3.tables (f2.tables (f1.tables hT)))
  have hl := nums_length hW true d c
  have hr := (C32_room (W.nums true d c)).2
  rw [hl] at hr
  have hp := (C32_putVarint (nums := ⟨.heap (n + 1 + 1), 0, c, c⟩) (out := ⟨.heap (n + 1), 0, 5 * c, 5 * c⟩) (m := m4) (.inl ne!)
    (by simp only; omega)).1
  rw [w4] at hp
  obtain ⟨m5, r5, b5, f5⟩ := hp hr
  have f5 : Same (.heap (n + 1)) m4 m5 := fun q hq => f5 q fun h => hq h.1
  have hT5 := f5.tables hT4
  refine .makeW r1 (.makeB r2 (.gen r3 (.call r4 (.call r5 (.upto (upto_run m5 _ rfl hr) ((read_rounds hR (k := n)
    (P := fun m' => wordsOf m' ⟨.heap n, 0, c, c⟩ = (W.nums true d c)) (fun N s h0 hN m6 f6 => Runs.againI hf h0 hN (fun m7 f7 => ?_) s)).mono ?_))))))
  · obtain ⟨m8, r8, w8, f8⟩ := C32_getVarint (m := m7) (out := ⟨.heap n, 0, c, c⟩) (xs := (W.nums true d c))
      (data := ⟨.heap (n + 1), 0, varintSize (W.nums true d c), 5 * c⟩) (.inl ne!)
      (by simp only; omega) ((f7.bytes ne!).trans ((f6.bytes ne!).trans b5)) (by rw [hl]; exact Nat.le_refl _)
    rw [hl] at w8
    exact ⟨_, m8, r8, fun q hq => f8 q fun h => hq h.1, w8⟩
  · rintro _ s' m' ⟨h1, h2, h3, h4, h5, h6, h7⟩
    exact ⟨h1, h2, h3, h6.tables hT5, h4.trans (bytes_count hc), _, h5, _, rfl, h7⟩

theorem bReadDeltaVarint_ran : Ran (bReadDeltaVarint W fuel) (StreamEnds (ReadDone W true) n!"readSinkB") := by
  refine Runs.tens hf h8 ?_
  rintro c hc ⟨d, n, fl, sk, bs, sn⟩ m hT
  have e5 : int64 (5 * (c : Int)) = ((5 * c : Nat) : Int) := by rw [int64_eq (by omega) (by omega)]; omega
  simp only [e5]
  obtain ⟨m1, r1, f1⟩ := makeWords_run (.heap n) m (i := c) c rfl
  obtain ⟨m2, r2, f2⟩ := makeBytes_run (.heap (n + 1)) m1 (i := (5 * c : Nat)) (5 * c) rfl
  obtain ⟨m3, r3, f3, w3⟩ := gen_run W d (.heap (n + 1 + 1)) m2 (i := c) c rfl
  obtain ⟨m4, r4, f4, w4⟩ := sort_run hW w3
  have hT4 := f4.tables (f3.tables (f2.tables (f1.tables hT)))
  have hl := nums_length hW true d c
  have hr := (C32_room (delta 0 (W.nums true d c))).2
  rw [delta_length, hl] at hr
  have hp := (C32_putDeltaVarint (nums := ⟨.heap (n + 1 + 1), 0, c, c⟩) (out := ⟨.heap (n + 1), 0, 5 * c, 5 * c⟩) (m := m4) 0 (.inl ne!)
    (by simp only; omega)).1
  rw [w4] at hp
  obtain ⟨m5, r5, b5, f5⟩ := hp hr
  have f5 : Same (.heap (n + 1)) m4 m5 := fun q hq => f5 q fun h => hq h.1
  have hT5 := f5.tables hT4
  refine .makeW r1 (.makeB r2 (.gen r3 (.call r4 (.call r5 (.upto (upto_run m5 _ rfl hr) ((read_rounds hR (k := n)
    (P := fun m' => wordsOf m' ⟨.heap n, 0, c, c⟩ = (W.nums true d c)) (fun N s h0 hN m6 f6 => Runs.againI hf h0 hN (fun m7 f7 => ?_) s)).mono ?_))))))
  · obtain ⟨m8, r8, w8, f8⟩ := C32_getDeltaVarint (m := m7) (out := ⟨.heap n, 0, c, c⟩) (ds := (delta 0 (W.nums true d c)))
      (data := ⟨.heap (n + 1), 0, varintSize (delta 0 (W.nums true d c)), 5 * c⟩) 0 (.inl ne!)
      (by simp only; omega) ((f7.bytes ne!).trans ((f6.bytes ne!).trans b5)) (by rw [delta_length, hl]; exact Nat.le_refl _)
    rw [delta_length, hl, undelta_delta] at w8
    exact ⟨_, m8, r8, fun q hq => f8 q fun h => hq h.1, w8⟩
  · rintro _ s' m' ⟨h1, h2, h3, h4, h5, h6, h7⟩
    exact ⟨h1, h2, h3, h6.tables hT5, h4.trans (bytes_count hc), _, h5, _, rfl, h7⟩

omit hW in
theorem bWriteAllFast_ran (hm : encodeMode W.cpu ≠ .normal) : Ran (bWriteAllFast W fuel) (StreamEnds (WriteDone W false false) n!"readSinkA") := by
  rintro ⟨d, n, fl, sk, bs, sn⟩ m hT
  refine .skipIf (decide_eq_false hm) (Runs.tens hf h8 ?_ _ _ hT)
  rintro c hc ⟨d, n, fl, sk, bs, sn⟩ m hT
  obtain ⟨m1, r1, f1, w1⟩ := gen_run W d (.heap n) m (i := c) c rfl
  obtain ⟨m2, rfl⟩ : ∃ m2, m2 = m1 := ⟨m1, rfl⟩
  have w2 := w1
  have hT2 := f1.tables hT
  refine .gen r1 ((write_rounds hf hR (nums := ⟨.heap n, 0, c, c⟩) (j := n)
    (ys := encode (diffs false (W.nums false d c))) ?_ rfl hT2 w2 (Nat.lt_succ_self n)).mono ?_)
  · intro k m3 hk hT3 hw
    obtain ⟨m4, l, cp, r4, -, f4, b4⟩ := write_run .fast (j := n) (k := k) (n := c) hT3 (by omega) (by omega)
    rw [hw] at b4
    exact ⟨m4, l, cp, (congrArg (run · m3) (encode_amd64 hm _)).trans r4, f4, b4⟩
  · rintro _ s' m' ⟨h1, h2, h3, h4, h5, h6⟩
    exact ⟨h1, h2, h3, h4, h5.trans (bytes_count hc), h6⟩

theorem bWriteAllDeltaFast_ran (hm : encodeMode W.cpu ≠ .normal) : Ran (bWriteAllDeltaFast W fuel) (StreamEnds (WriteDone W true true) n!"readSinkB") := by
  rintro ⟨d, n, fl, sk, bs, sn⟩ m hT
  refine .skipIf (decide_eq_false hm) (Runs.tens hf h8 ?_ _ _ hT)
  rintro c hc ⟨d, n, fl, sk, bs, sn⟩ m hT
  obtain ⟨m1, r1, f1, w1⟩ := gen_run W d (.heap n) m (i := c) c rfl
  obtain ⟨m2, r2, f2, w2⟩ := sort_run hW w1
  have hT2 := f2.tables (f1.tables hT)
  refine .gen r1 (.call r2 ((write_rounds hf hR (nums := ⟨.heap n, 0, c, c⟩) (j := n)
    (ys := encode (diffs true (W.nums true d c))) ?_ rfl hT2 w2 (Nat.lt_succ_self n)).mono ?_))
  · intro k m3 hk hT3 hw
    obtain ⟨m4, l, cp, r4, -, f4, b4⟩ := writeDelta_run .fast (j := n) (k := k) (n := c) hT3 (by omega) (by omega) 0
    rw [hw] at b4
    exact ⟨m4, l, cp, (congrArg (run · m3) (encode_amd64 hm _)).trans r4, f4, b4⟩
  · rintro _ s' m' ⟨h1, h2, h3, h4, h5, h6⟩
    exact ⟨h1, h2, h3, h4, h5.trans (bytes_count hc), h6⟩

theorem bWriteAllScalar_ran : Ran (bWriteAllScalar W fuel) (StreamEnds (WriteDone W false true) n!"readSinkC") := by
  refine Runs.tens hf h8 ?_
  rintro c hc ⟨d, n, fl, sk, bs, sn⟩ m hT
  obtain ⟨m1, r1, f1, w1⟩ := gen_run W d (.heap n) m (i := c) c rfl
  obtain ⟨m2, r2, f2, w2⟩ := sort_run hW w1
  have hT2 := f2.tables (f1.tables hT)
  refine .gen r1 (.call r2 ((write_rounds hf hR (nums := ⟨.heap n, 0, c, c⟩) (j := n)
    (ys := encode (diffs false (W.nums true d c))) ?_ rfl hT2 w2 (Nat.lt_succ_self n)).mono ?_))
  · intro k m3 hk hT3 hw
    obtain ⟨m4, l, cp, r4, -, f4, b4⟩ := write_run .scalar (j := n) (k := k) (n := c) hT3 (by omega) (by omega)
    rw [hw] at b4
    exact ⟨m4, l, cp, r4, f4, b4⟩
  · rintro _ s' m' ⟨h1, h2, h3, h4, h5, h6⟩
    exact ⟨h1, h2, h3, h4, h5.trans (bytes_count hc), h6⟩

theorem bWriteAllDeltaScalar_ran : Ran (bWriteAllDeltaScalar W fuel) (StreamEnds (WriteDone W true true) n!"readSinkD") := by
  refine Runs.tens hf h8 ?_
  rintro c hc ⟨d, n, fl, sk, bs, sn⟩ m hT
  obtain ⟨m1, r1, f1, w1⟩ := gen_run W d (.heap n) m (i := c) c rfl
  obtain ⟨m2, r2, f2, w2⟩ := sort_run hW w1
  have hT2 := f2.tables (f1.tables hT)
  refine .gen r1 (.call r2 ((write_rounds hf hR (nums := ⟨.heap n, 0, c, c⟩) (j := n)
    (ys := encode (diffs true (W.nums true d c))) ?_ rfl hT2 w2 (Nat.lt_succ_self n)).mono ?_))
  · intro k m3 hk hT3 hw
    obtain ⟨m4, l, cp, r4, -, f4, b4⟩ := writeDelta_run .scalar (j := n) (k := k) (n := c) hT3 (by omega) (by omega) 0
    rw [hw] at b4
    exact ⟨m4, l, cp, r4, f4, b4⟩
  · rintro _ s' m' ⟨h1, h2, h3, h4, h5, h6⟩
    exact ⟨h1, h2, h3, h4, h5.trans (bytes_count hc), h6⟩

theorem bWriteVarint_ran : Ran (bWriteVarint W fuel) (StreamEnds (SizeDone W false true) n!"readSinkE") := by
  refine Runs.tens hf h8 ?_
  rintro c hc ⟨d, n, fl, sk, bs, sn⟩ m hT
  have e5 : int64 ((c : Int) * 5) = ((5 * c : Nat) : Int) := by rw [int64_eq (by omega) (by omega)]; omega
  simp only [e5]
  obtain ⟨m1, r1, f1, w1⟩ := gen_run W d (.heap n) m (i := c) c rfl
  obtain ⟨m2, r2, f2, w2⟩ := sort_run hW w1
  obtain ⟨m3, r3, f3⟩ := makeBytes_run (.heap (n + 1)) m2 (i := (5 * c : Nat)) (5 * c) rfl
  have hT3 := f3.tables (f2.tables (f1.tables hT))
  have hl := nums_length hW true d c
  have hr := (C32_room (W.nums true d c)).2
  rw [hl] at hr
  refine .gen r1 (.call r2 (.makeB r3 ((size_rounds hf hR (k := n + 1) (c := varintSize (W.nums true d c)) (fun m4 f4 => ?_)).mono ?_)))
  · have hp := (C32_putVarint (nums := ⟨.heap n, 0, c, c⟩) (out := ⟨.heap (n + 1), 0, 5 * c, 5 * c⟩) (m := m4) (.inl ne!)
      (by simp only; omega)).1
    rw [wordsOf_eq, f4.words ne!, f3.words ne!, ← wordsOf_eq, w2] at hp
    obtain ⟨m5, r5, -, f5⟩ := hp hr
    exact ⟨m5, r5, fun q hq => f5 q fun h => hq h.1⟩
  · rintro _ s' m' ⟨h1, h2, h3, h4, h5, h6⟩
    exact ⟨h1, h2, h3, h6.tables hT3, h4.trans (bytes_count hc), _, h5, rfl⟩

theorem bWriteDeltaVarint_ran : Ran (bWriteDeltaVarint W fuel) (StreamEnds (SizeDone W true true) n!"readSinkE") := by
  refine Runs.tens hf h8 ?_
  rintro c hc ⟨d, n, fl, sk, bs, sn⟩ m hT
  have e5 : int64 ((c : Int) * 5) = ((5 * c : Nat) : Int) := by rw [int64_eq (by omega) (by omega)]; omega
  simp only [e5]
  obtain ⟨m1, r1, f1, w1⟩ := gen_run W d (.heap n) m (i := c) c rfl
  obtain ⟨m2, r2, f2, w2⟩ := sort_run hW w1
  obtain ⟨m3, r3, f3⟩ := makeBytes_run (.heap (n + 1)) m2 (i := (5 * c : Nat)) (5 * c) rfl
  have hT3 := f3.tables (f2.tables (f1.tables hT))
  have hl := nums_length hW true d c
  have hr := (C32_room (delta 0 (W.nums true d c))).2
  rw [delta_length, hl] at hr
  refine .gen r1 (.call r2 (.makeB r3 ((size_rounds hf hR (k := n + 1) (c := varintSize (delta 0 (W.nums true d c))) (fun m4 f4 => ?_)).mono ?_)))
  · have hp := (C32_putDeltaVarint (nums := ⟨.heap n, 0, c, c⟩) (out := ⟨.heap (n + 1), 0, 5 * c, 5 * c⟩) (m := m4) 0 (.inl ne!)
      (by simp only; omega)).1
    rw [wordsOf_eq, f4.words ne!, f3.words ne!, ← wordsOf_eq, w2] at hp
    obtain ⟨m5, r5, -, f5⟩ := hp hr
    exact ⟨m5, r5, fun q hq => f5 q fun h => hq h.1⟩
  · rintro _ s' m' ⟨h1, h2, h3, h4, h5, h6⟩
    exact ⟨h1, h2, h3, h6.tables hT3, h4.trans (bytes_count hc), _, h5, rfl⟩

end

end SVB.Tests
