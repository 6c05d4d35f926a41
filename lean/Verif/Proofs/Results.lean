import Verif.Setting
import Verif.Proofs.BridgeDec
import Verif.Proofs.WriterScalar
import Verif.Proofs.WriterFast
import Verif.Proofs.ReaderScalar
import Verif.Proofs.ReaderFast

/-! # The stream functions in terms of `run`, `trace` and the format -/

set_option autoImplicit false

namespace SVB
open Spec

theorem writeAll_cases (c : Cpu) (fresh : Block) (inn : U32s) :
    writeAll c fresh inn = writeAllFast fresh inn ∨ writeAll c fresh inn = writeAllScalar fresh inn := by
  rcases c with ⟨a, b, d⟩; cases a <;> cases b <;> cases d <;> simp [writeAll, encodeMode, onAmd64]

theorem writeAllDelta_cases (c : Cpu) (fresh : Block) (inn : U32s) (prev : U32) :
    writeAllDelta c fresh inn prev = writeAllDeltaFast fresh inn prev ∨
      writeAllDelta c fresh inn prev = writeAllDeltaScalar fresh inn prev := by
  rcases c with ⟨a, b, d⟩; cases a <;> cases b <;> cases d <;> simp [writeAllDelta, encodeMode, onAmd64]

theorem readAll_cases (c : Cpu) (n : Int) (st : Bytes) (out : U32s) :
    readAll c n st out = readAllFast n st out ∨ readAll c n st out = readAllScalar n st out := by
  rcases c with ⟨a, b, d⟩; cases a <;> cases b <;> cases d <;> simp [readAll, decodeMode, onAmd64]

theorem readAllDelta_cases (c : Cpu) (n : Int) (st : Bytes) (out : U32s) (prev : U32) :
    readAllDelta c n st out prev = readAllDeltaFast n st out prev ∨
      readAllDelta c n st out prev = readAllDeltaScalar n st out prev := by
  rcases c with ⟨a, b, d⟩; cases a <;> cases b <;> cases d <;> simp [readAllDelta, decodeMode, onAmd64]

/-- What a `wp` statement without panics says about the execution. -/
theorem run_of_wp {α : Type} {c : Ctx} {p : Prog α} {m : Mem} {Q : α → Mem → Prop}
    (h : wp c p m Q) (hE : ∀ k m', ¬ c.E k m') :
    ∃ a m', run p m = (.ok a, m') ∧ Q a m' ∧ (∀ q, ¬ c.W q → m' q = m q) ∧ ∀ e ∈ trace p m, c.allows e := by
  obtain ⟨h1, h2⟩ := (wp_iff c p m Q).1 h
  have hf : ∀ q, ¬ c.W q → (run p m).2 q = m q := fun q hq => run_frame p m q fun he => hq (h1 _ he)
  revert h2 hf
  cases hr : run p m with
  | mk o m' =>
    cases o with
    | ok a => intro h2 hf; exact ⟨a, m', rfl, h2, hf, h1⟩
    | panic k => intro h2 _; exact absurd h2 (hE k m')

/-- The same with panics. -/
theorem run_of_wp' {α : Type} {c : Ctx} {p : Prog α} {m : Mem} {Q : α → Mem → Prop} (h : wp c p m Q) :
    ((∃ a m', run p m = (.ok a, m') ∧ Q a m') ∨ (∃ k m', run p m = (.panic k, m') ∧ c.E k m')) ∧
      (∀ q, ¬ c.W q → (run p m).2 q = m q) ∧ ∀ e ∈ trace p m, c.allows e := by
  obtain ⟨h1, h2⟩ := (wp_iff c p m Q).1 h
  refine ⟨?_, fun q hq => run_frame p m q fun he => hq (h1 _ he), h1⟩
  revert h2
  cases hr : run p m with
  | mk o m' =>
    cases o with
    | ok a => intro h2; exact .inl ⟨a, m', rfl, h2⟩
    | panic k => intro h2; exact .inr ⟨k, m', rfl, h2⟩

/-! ## Writers -/

/-- Everything about a writer call: result, stream contents, frame, footprint. -/
structure WriteResult (p : Prog Bytes) (fresh : Block) (inn : U32s) (xs : List U32) (m : Mem) : Prop where
  ex : ∃ m', run p m = (.ok ⟨fresh, 0, (encode xs).length, ctrlLen inn.len + 4 * inn.len⟩, m') ∧
    bytesOf m' ⟨fresh, 0, (encode xs).length, ctrlLen inn.len + 4 * inn.len⟩ = encode xs ∧
    (∀ q, ¬ Seg fresh 0 (ctrlLen inn.len + 4 * inn.len) q → m' q = m q) ∧
    ZeroTail m' fresh (encode xs).length (ctrlLen inn.len + 4 * inn.len)
  foot : ∀ e ∈ trace p m, (wctx fresh inn).allows e

theorem writeResult_of_wp {p : Prog Bytes} {fresh : Block} {inn : U32s} {xs : List U32} {m : Mem}
    {x : Nat → U32} (hl : xs.length = inn.len)
    (h : wp (wctx fresh inn) p m (fun r m' => WI fresh inn (fn xs) x m' inn.len ∧
      r = ⟨fresh, 0, ctrlLen inn.len + offs (fn xs) inn.len, ctrlLen inn.len + 4 * inn.len⟩)) :
    WriteResult p fresh inn xs m := by
  obtain ⟨r, m', hr, ⟨hI, rfl⟩, hf, ht⟩ := run_of_wp h (fun _ _ h => h)
  have hlen : (encode xs).length = ctrlLen inn.len + offs (fn xs) inn.len := by rw [encode_length, hl]
  refine ⟨⟨m', by rw [hlen]; exact hr, ?_, hf, by rw [hlen]; exact hI.tail⟩, ht⟩
  refine bytes_encode (b := fresh) (o := 0) rfl rfl (by rw [← encode_length]) ?_ ?_
  · intro g hg k hk
    rw [Nat.zero_add]
    rw [hl] at hg
    simp only [ctrlLen] at hg
    exact hI.codes g (by omega) k hk
  · rw [Nat.zero_add, hl]; exact hI.stored

theorem words_of (m : Mem) (inn : U32s) (t : Nat) (ht : t < inn.len) :
    wordAt m inn.blk (inn.off + 4 * t) = fn (wordsOf m inn) t := (wordsN_fn m inn inn.len t ht).symm

theorem wordsOf_length (m : Mem) (s : U32s) : (wordsOf m s).length = s.len := wordsN_length m s s.len

theorem write_result (f : Fn) {fresh : Block} {inn : U32s} {m : Mem} (h : WriterPre fresh inn m) :
    WriteResult (f.write fresh inn) fresh inn (wordsOf m inn) m := by
  have hl := wordsOf_length m inn
  have hs : WriteResult (writeAllScalar fresh inn) fresh inn (wordsOf m inn) m :=
    writeResult_of_wp hl (writeAllScalar_spec (v := fn (wordsOf m inn)) (x := fn (wordsOf m inn)) h.tables
      h.fresh_ne h.fresh_heap h.valid.len_le h.valid.small (words_of m inn) (fun _ _ => rfl) (fn_zero hl))
  have hf : WriteResult (writeAllFast fresh inn) fresh inn (wordsOf m inn) m :=
    writeResult_of_wp hl (writeAllFast_spec (v := fn (wordsOf m inn)) (x := fn (wordsOf m inn)) h.tables
      h.fresh_ne h.fresh_heap h.valid.len_le h.valid.small (words_of m inn) (fun _ _ => rfl) (fn_zero hl))
  cases f with
  | scalar => exact hs
  | fast => exact hf
  | auto c => rcases writeAll_cases c fresh inn with e | e <;> simp only [Fn.write, e, hf, hs]

theorem writeDelta_result (f : Fn) {fresh : Block} {inn : U32s} {m : Mem} (prev : U32)
    (h : WriterPre fresh inn m) :
    WriteResult (f.writeDelta fresh inn prev) fresh inn (delta prev (wordsOf m inn)) m := by
  have hl' := wordsOf_length m inn
  have hl : (delta prev (wordsOf m inn)).length = inn.len := by rw [delta_length, hl']
  have hv : ∀ t < inn.len, fn (delta prev (wordsOf m inn)) t =
      fn (wordsOf m inn) t - pv (fn (wordsOf m inn)) prev t := fun t ht =>
    delta_fn prev _ t (by rw [hl']; exact ht)
  have hs : WriteResult (writeAllDeltaScalar fresh inn prev) fresh inn (delta prev (wordsOf m inn)) m :=
    writeResult_of_wp hl (writeAllDeltaScalar_spec (x := fn (wordsOf m inn)) prev h.tables
      h.fresh_ne h.fresh_heap h.valid.len_le h.valid.small (words_of m inn) hv (fn_zero hl))
  have hf : WriteResult (writeAllDeltaFast fresh inn prev) fresh inn (delta prev (wordsOf m inn)) m :=
    writeResult_of_wp hl (writeAllDeltaFast_spec (x := fn (wordsOf m inn)) prev h.tables
      h.fresh_ne h.fresh_heap h.valid.len_le h.valid.small (words_of m inn) hv (fn_zero hl))
  cases f with
  | scalar => exact hs
  | fast => exact hf
  | auto c => rcases writeAllDelta_cases c fresh inn prev with e | e <;> simp only [Fn.writeDelta, e, hf, hs]

/-! ## Readers -/

theorem ReaderPre.rhyp {n : Nat} {st : Bytes} {out : U32s} {m : Mem} (h : ReaderPre n st out m) :
    RHyp st out n m where
  tables := h.tables
  hout := h.vout.heap
  disj q hq hs := by
    have := h.room
    rcases h.disj with hd | hd | hd
    · exact hd (hq.1.symm.trans hs.1)
    · have := hq.2.2; have := hs.2.1; omega
    · have := hq.2.1; have := hs.2.2; omega
  len := h.room
  cap := h.vout.len_le
  scap := h.stream_cap
  small := by have := h.room; have := h.vout.len_le; have := h.vout.small; omega

/-- The result of a reader call; `r` is what the stream decodes to. -/
def ReadResult (p : Prog Unit) (m : Mem) (out : U32s) (n : Nat) (r : Option (List U32)) : Prop :=
  (match r with
    | some xs => ∃ m', run p m = (.ok (), m') ∧ wordsN m' out n = xs
    | none => ∃ k m', run p m = (.panic k, m') ∧ BoundsPanic k) ∧
  ∀ q, ¬ inFirst out n q → (run p m).2 q = m q

theorem readResult_of_wp {p : Prog Unit} {st : Bytes} {out : U32s} {n : Nat} {m : Mem} {Z : Ptr → Prop}
    {y : Nat → U32}
    (h : wp (rctx st out n m Z) p m
      (fun _ m' => RI st out n m y m' n ∧ rB st n + psum (rsz st m) n ≤ st.off + st.len)) :
    ReadResult p m out n
      (if rB st n + psum (rsz st m) n ≤ st.off + st.len then some ((List.range n).map y) else none) := by
  obtain ⟨h1, h2, h3⟩ := run_of_wp' h
  refine ⟨?_, h2⟩
  rcases h1 with ⟨⟨⟩, m', hr, hI, hle⟩ | ⟨k, m', hr, hk, hle⟩
  · rw [if_pos hle]
    refine ⟨m', hr, wordsN_eq fun t ht => hI.words t ht ?_⟩
    have := psum_mono (f := rsz st m) (show t + 1 ≤ n by omega)
    omega
  · rw [if_neg hle]
    exact ⟨k, m', hr, hk⟩

theorem read_result (f : Fn) {n : Nat} {st : Bytes} {out : U32s} {m : Mem} (h : ReaderPre n st out m) :
    ReadResult (f.read n st out) m out n (decode n (bytesOf m st)) := by
  rw [decode_eq]
  have hs : ReadResult (readAllScalar n st out) m out n _ :=
    readResult_of_wp (readAllScalar_spec (Z := fun _ => True) h.rhyp)
  have hf : ReadResult (readAllFast n st out) m out n _ :=
    readResult_of_wp (readAllFast_spec (Z := fun _ => True) h.rhyp (fun _ _ => trivial))
  cases f with
  | scalar => exact hs
  | fast => exact hf
  | auto c => rcases readAll_cases c n st out with e | e <;> simp only [Fn.read, e, hf, hs]

theorem readDelta_result (f : Fn) {n : Nat} {st : Bytes} {out : U32s} {m : Mem} (prev : U32)
    (h : ReaderPre n st out m) :
    ReadResult (f.readDelta n st out prev) m out n (decodeDelta prev n (bytesOf m st)) := by
  rw [decodeDelta_eq]
  have hs : ReadResult (readAllDeltaScalar n st out prev) m out n _ :=
    readResult_of_wp (readAllDeltaScalar_spec (Z := fun _ => True) prev h.rhyp (fun _ _ => trivial))
  have hf : ReadResult (readAllDeltaFast n st out prev) m out n _ :=
    readResult_of_wp (readAllDeltaFast_spec (Z := fun _ => True) prev h.rhyp (fun _ _ => trivial)
      (fun _ _ => trivial))
  cases f with
  | scalar => exact hs
  | fast => exact hf
  | auto c => rcases readAllDelta_cases c n st out prev with e | e <;> simp only [Fn.readDelta, e, hf, hs]

/-! ## Footprints -/

theorem allows_mono {c c' : Ctx} (hR : ∀ q, c.R q → c'.R q) (hW : ∀ q, c.W q → c'.W q) {e : Event}
    (h : c.allows e) : c'.allows e := by
  cases e with
  | rd p => exact hR p h
  | wr p => exact hW p h

theorem readScalar_foot {n : Nat} {st : Bytes} {out : U32s} {m : Mem} (h : ReaderPre n st out m) :
    ∀ e ∈ trace (readAllScalar n st out) m, (rctx st out n m (fun _ => False)).allows e :=
  (run_of_wp' (readAllScalar_spec h.rhyp)).2.2

theorem readDeltaScalar_foot {n : Nat} {st : Bytes} {out : U32s} {m : Mem} (prev : U32)
    (h : ReaderPre n st out m) :
    ∀ e ∈ trace (readAllDeltaScalar n st out prev) m, (rctx st out n m (inFirst out n)).allows e :=
  (run_of_wp' (readAllDeltaScalar_spec prev h.rhyp (fun _ h => h))).2.2

theorem read_foot (f : Fn) {n : Nat} {st : Bytes} {out : U32s} {m : Mem} (h : ReaderPre n st out m) :
    ∀ e ∈ trace (f.read n st out) m, (rctx st out n m (overR st n m)).allows e := by
  have hs := (run_of_wp' (readAllScalar_spec (Z := overR st n m) h.rhyp)).2.2
  have hf := (run_of_wp' (readAllFast_spec (Z := overR st n m) h.rhyp (fun _ h => h))).2.2
  cases f with
  | scalar => exact hs
  | fast => exact hf
  | auto c => rcases readAll_cases c n st out with e | e <;> simp only [Fn.read, e] <;> assumption

theorem readDelta_foot (f : Fn) {n : Nat} {st : Bytes} {out : U32s} {m : Mem} (prev : U32)
    (h : ReaderPre n st out m) :
    ∀ e ∈ trace (f.readDelta n st out prev) m,
      (rctx st out n m (fun q => inFirst out n q ∨ overR st n m q)).allows e := by
  have hs := (run_of_wp' (readAllDeltaScalar_spec (Z := fun q => inFirst out n q ∨ overR st n m q) prev h.rhyp
    (fun _ h => .inl h))).2.2
  have hf := (run_of_wp' (readAllDeltaFast_spec (Z := fun q => inFirst out n q ∨ overR st n m q) prev h.rhyp
    (fun _ h => .inr h) (fun _ h => .inl h))).2.2
  cases f with
  | scalar => exact hs
  | fast => exact hf
  | auto c => rcases readAllDelta_cases c n st out prev with e | e <;> simp only [Fn.readDelta, e] <;> assumption

/-- Equal words in `out[0:n]` and no other changes: equal memories. -/
theorem mem_eq_of_words {m m₁ m₂ : Mem} {out : U32s} {n : Nat} (f1 : ∀ q, ¬ inFirst out n q → m₁ q = m q)
    (f2 : ∀ q, ¬ inFirst out n q → m₂ q = m q) (h : wordsN m₁ out n = wordsN m₂ out n) : m₁ = m₂ := by
  funext q
  by_cases hq : inFirst out n q
  · obtain ⟨t, k, ht, hk, ho⟩ : ∃ t k, t < n ∧ k < 4 ∧ q.off = out.off + 4 * t + k := by
      have := hq.2
      exact ⟨(q.off - out.off) / 4, (q.off - out.off) % 4, by omega, by omega, by omega⟩
    have hw : wordAt m₁ out.blk (out.off + 4 * t) = wordAt m₂ out.blk (out.off + 4 * t) := by
      rw [← wordsN_fn _ _ _ _ ht, ← wordsN_fn _ _ _ _ ht, h]
    have key : ∀ (a3 a2 a1 a0 b3 b2 b1 b0 : Byte), a3 ++ a2 ++ a1 ++ a0 = b3 ++ b2 ++ b1 ++ b0 →
        a3 = b3 ∧ a2 = b2 ∧ a1 = b1 ∧ a0 = b0 := by
      intro a3 a2 a1 a0 b3 b2 b1 b0 h
      have h' := congrArg BitVec.toNat h
      simp only [BitVec.toNat_append] at h'
      have l := fun (x y : Nat) (hy : y < 2 ^ 8) => Nat.shiftLeft_add_eq_or_of_lt hy x
      rw [← l _ _ a0.isLt, ← l _ _ a1.isLt, ← l _ _ a2.isLt, ← l _ _ b0.isLt, ← l _ _ b1.isLt,
        ← l _ _ b2.isLt] at h'
      simp only [Nat.shiftLeft_eq] at h'
      have := a0.isLt; have := a1.isLt; have := a2.isLt; have := a3.isLt
      have := b0.isLt; have := b1.isLt; have := b2.isLt; have := b3.isLt
      refine ⟨?_, ?_, ?_, ?_⟩ <;> apply BitVec.eq_of_toNat_eq <;> omega
    obtain ⟨h3, h2, h1, h0⟩ := key _ _ _ _ _ _ _ _ hw
    have hqe : q = ⟨out.blk, out.off + 4 * t + k⟩ := by rw [← ho, ← hq.1]
    rw [hqe]
    have : k = 0 ∨ k = 1 ∨ k = 2 ∨ k = 3 := by omega
    rcases this with rfl | rfl | rfl | rfl <;> assumption
  · rw [f1 q hq, f2 q hq]

/-! ## Sequencing -/

theorem run_bind {α β : Type} (p : Prog α) (f : α → Prog β) (m : Mem) :
    run (p.bind f) m = match run p m with
      | (.ok a, m') => run (f a) m'
      | (.panic k, m') => (.panic k, m') := by
  induction p generalizing m with
  | ret a => rfl
  | panic k => rfl
  | load p k ih => exact ih _ _
  | store p v k ih => exact ih _

/-- After a writer, its result can be read into any `out` outside its buffer. -/
theorem readerPre_after {fresh : Block} {inn out : U32s} {m m' : Mem} {l : Nat}
    (hw : WriterPre fresh inn m) (ho : Valid out) (hne : out.blk ≠ fresh) (hroom : inn.len ≤ out.len)
    (hl : l ≤ ctrlLen inn.len + 4 * inn.len)
    (hf : ∀ q, ¬ Seg fresh 0 (ctrlLen inn.len + 4 * inn.len) q → m' q = m q) :
    ReaderPre inn.len ⟨fresh, 0, l, ctrlLen inn.len + 4 * inn.len⟩ out m' where
  tables := hw.tables.frame fun q hq => hf q fun hs => by
    have h1 := hs.1
    rw [h1, hw.fresh_heap] at hq
    exact absurd hq (by decide)
  stream_cap := hl
  vout := ho
  disj := .inl (Ne.symm hne)
  room := hroom

end SVB
