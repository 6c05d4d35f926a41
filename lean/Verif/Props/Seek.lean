import Verif.Model.Seek
import Verif.Props.Access
import Verif.Proofs.TestSteps

/-! # C90: looking for a number in a sorted delta stream -/

set_option autoImplicit false

namespace SVB.Props
open Spec

private theorem firstIn_run {buf : U32s} {x : U32} {m : Mem} : ∀ (r i : Nat), i + r ≤ buf.len →
    ∃ i', run (firstIn buf x r i) m = (.ok i', m) ∧ i ≤ i' ∧ i' ≤ i + r ∧
      (∀ j, i ≤ j → j < i' → wordAt m buf.blk (buf.off + 4 * j) < x) ∧
      (i' < i + r → x ≤ wordAt m buf.blk (buf.off + 4 * i')) := by
  intro r
  induction r with
  | zero => exact fun i _ => ⟨i, rfl, Nat.le_refl _, Nat.le_refl _, fun j h1 h2 => by omega, fun h => by omega⟩
  | succ r ih =>
    intro i hi
    have e : firstIn buf x (r + 1) i = (getW buf i).bind fun v => if x ≤ v then .ret i else firstIn buf x r (i + 1) := rfl
    rw [e, run_bind, Tests.getW_run buf m i rfl (by omega)]
    show ∃ i', run (if x ≤ wordAt m buf.blk (buf.off + 4 * i) then .ret i else firstIn buf x r (i + 1)) m = _ ∧ _
    by_cases hx : x ≤ wordAt m buf.blk (buf.off + 4 * i)
    · rw [if_pos hx]
      exact ⟨i, rfl, Nat.le_refl _, by omega, fun j h1 h2 => by omega, fun _ => hx⟩
    · rw [if_neg hx]
      obtain ⟨i', h1, h2, h3, h4, h5⟩ := ih (i + 1) (by omega)
      refine ⟨i', h1, by omega, by omega, fun j h6 h7 => ?_, fun h => h5 (by omega)⟩
      by_cases hj : j = i
      · subst hj; exact BitVec.not_le.1 hx
      · exact h4 j (by omega) h7

/-- `i` is the place of the first number not less than `x`, or the number of numbers: all before it are less, all others are not. -/
def SeekAt (xs : List U32) (x : U32) (i : Nat) : Prop :=
  i ≤ xs.length ∧ (∀ (j : Nat) (h : j < xs.length), j < i → xs[j] < x) ∧ ∀ (j : Nat) (h : j < xs.length), i ≤ j → x ≤ xs[j]

/-- There is only one such place. -/
theorem seekAt_unique {xs : List U32} {x : U32} {i j : Nat} (hi : SeekAt xs x i) (hj : SeekAt xs x j) : i = j := by
  obtain ⟨a1, a2, a3⟩ := hi
  obtain ⟨b1, b2, b3⟩ := hj
  rcases Nat.lt_trichotomy i j with h | h | h
  · have u := a3 i (by omega) (Nat.le_refl _)
    have v := b2 i (by omega) h
    rw [BitVec.le_def] at u
    rw [BitVec.lt_def] at v
    omega
  · exact h
  · have u := b3 j (by omega) (Nat.le_refl _)
    have v := a2 j (by omega) h
    rw [BitVec.le_def] at u
    rw [BitVec.lt_def] at v
    omega

/-- A call of the search: the buffer has room for four numbers and lies in another block. -/
structure SeekPre (n : Nat) (st : Bytes) (buf : U32s) (m : Mem) (prev : U32) (xs : List U32) : Prop where
  blk : st.blk ≠ buf.blk
  room : 4 ≤ buf.len
  stream : decodeDelta prev n (bytesOf m st) = some xs
  sorted : xs.Pairwise fun a b => a.toNat ≤ b.toNat

private theorem stream_length {n : Nat} {prev : U32} {b : List Byte} {xs : List U32} (h : decodeDelta prev n b = some xs) :
    xs.length = n ∧ ctrlLen n ≤ b.length := by
  unfold decodeDelta at h
  cases hx : decode n b with
  | none => rw [hx] at h; cases h
  | some ys =>
    rw [hx] at h
    cases h
    exact ⟨by rw [undelta_length, decode_length hx], decode_some_len hx⟩

private theorem loop_run {n : Nat} {x : U32} {st : Bytes} {buf : U32s} {prev : U32} {xs : List U32} : ∀ (r g : Nat) (m : Mem),
    SeekPre n st buf m prev xs → g + r = ctrlLen n → (∀ (j : Nat) (h : j < xs.length), j < 4 * g → xs[j] < x) →
    ∃ i m', run (seekFrom n x st buf r g (numPos n (bytesOf m st) (4 * g)) ((xs.take (4 * g)).getLast?.getD prev)) m =
      (.ok i, m') ∧ SeekAt xs x i ∧ ∀ q, ¬ inPrefix buf 4 q → m' q = m q := by
  intro r
  induction r with
  | zero =>
    intro g m h hg hlt
    obtain ⟨hn, -⟩ := stream_length h.stream
    exact ⟨n, m, rfl, ⟨by omega, fun j hj _ => hlt j hj (by unfold ctrlLen at hg; omega), fun j hj h' => by omega⟩, fun _ _ => rfl⟩
  | succ r ih =>
    intro g m h hg hlt
    obtain ⟨hn, hc⟩ := stream_length h.stream
    rw [bytesOf_length] at hc
    have hgn : 4 * g < n := by unfold ctrlLen at hg; omega
    have hroom := h.room
    have hk1 : 1 ≤ min 4 (n - 4 * g) := by omega
    obtain ⟨m1, r1, w1, f1⟩ := C52_groupDelta (k := g) (c := min 4 (n - 4 * g)) (out := buf) prev (.inl h.blk) h.stream (by omega)
      (by omega) hgn (by omega)
    have hgl : g + 1 = ctrlLen n ∨ 4 * g + 4 ≤ n := by unfold ctrlLen at hg ⊢; omega
    have hmin : 4 * g + 4 ≤ n → min 4 (n - 4 * g) = 4 := by omega
    have hend : ¬ 4 * g + 4 ≤ n → 4 * g + min 4 (n - 4 * g) = n := by omega
    have hcap : 4 * g + min 4 (n - 4 * g) ≤ n := by omega
    have h44 : min 4 (n - 4 * g) ≤ 4 := by omega
    have e : ∀ pos prev, seekFrom n x st buf (r + 1) g pos prev = (getB st g).bind fun c => (st.from pos >>= fun d =>
        getUint32DeltaScalar d buf c (min 4 (n - 4 * g) : Nat) prev).bind fun s =>
      (getW buf (min 4 (n - 4 * g) - 1 : Nat)).bind fun last => if x ≤ last then
        (firstIn buf x (min 4 (n - 4 * g)) 0).bind fun i => .ret (4 * g + i)
      else seekFrom n x st buf r (g + 1) (pos + s) last := by
      intro pos prev
      rw [seekFrom]
      simp only [Prog.bind_eq, Prog.bind_assoc, Prog.pure_eq]
    rw [e, run_bind, Tests.getB_run st m g (by omega)]
    show ∃ i m', run ((st.from (numPos n (bytesOf m st) (4 * g)) >>= fun d => getUint32DeltaScalar d buf (ctrlOf m st g)
      (min 4 (n - 4 * g) : Nat) ((xs.take (4 * g)).getLast?.getD prev)).bind _) m = _ ∧ _
    rw [run_bind, r1]
    generalize hk : min 4 (n - 4 * g) = k at *
    have hw : ∀ j, j < k → ∃ hj : 4 * g + j < xs.length, wordAt m1 buf.blk (buf.off + 4 * j) = xs[4 * g + j] := by
      intro j hj
      have hj' : 4 * g + j < xs.length := by omega
      refine ⟨hj', ?_⟩
      have := congrArg (fun l => l[j]?) w1
      simp only [wordsN, List.getElem?_map, List.getElem?_range hj, Option.map_some, List.getElem?_take_of_lt hj, List.getElem?_drop,
        List.getElem?_eq_getElem hj', Option.some.injEq] at this
      exact this
    show ∃ i m', run ((getW buf (k - 1 : Nat)).bind _) m1 = _ ∧ _
    rw [run_bind, Tests.getW_run buf m1 (k - 1) rfl (by omega)]
    obtain ⟨hl, hlast⟩ := hw (k - 1) (by omega)
    rw [hlast]
    have hf4 : ∀ q, ¬ inPrefix buf 4 q → m1 q = m q := fun q hq => f1 q fun h => hq ⟨h.1, h.2.1, by have := h.2.2; omega⟩
    show ∃ i m', run (if x ≤ xs[4 * g + (k - 1)] then _ else _) m1 = _ ∧ _
    by_cases hx : x ≤ xs[4 * g + (k - 1)]
    · rw [if_pos hx]
      obtain ⟨i, a1, -, a3, a4, a5⟩ := firstIn_run (buf := buf) (x := x) (m := m1) k 0 (by omega)
      rw [Nat.zero_add] at a3 a5
      have hik : i < k := by
        refine Nat.lt_of_not_le fun hc => ?_
        have := a4 (k - 1) (by omega) (by omega)
        rw [hlast] at this
        rw [BitVec.le_def] at hx
        rw [BitVec.lt_def] at this
        omega
      refine ⟨4 * g + i, m1, by rw [run_bind, a1]; rfl, ⟨by omega, fun j hj hji => ?_, fun j hj hji => ?_⟩, hf4⟩
      · by_cases hjg : j < 4 * g
        · exact hlt j hj hjg
        · obtain ⟨u, v⟩ := hw (j - 4 * g) (by omega)
          have := a4 (j - 4 * g) (by omega) (by omega)
          rw [v] at this
          simpa only [show 4 * g + (j - 4 * g) = j by omega] using this
      · obtain ⟨u, v⟩ := hw i hik
        have hi := a5 hik
        rw [v, BitVec.le_def] at hi
        rw [BitVec.le_def]
        by_cases hij : 4 * g + i = j
        · subst hij; exact hi
        · exact Nat.le_trans hi (List.pairwise_iff_getElem.1 h.sorted _ _ u hj (by omega))
    · rw [if_neg hx]
      have hb : bytesOf m1 st = bytesOf m st := by
        unfold bytesOf
        refine List.map_congr_left fun i _ => hf4 _ fun hq => h.blk hq.1
      have hlt' : ∀ (j : Nat) (h : j < xs.length), j < 4 * (g + 1) → xs[j] < x := by
        intro j hj hjg
        rw [BitVec.not_le, BitVec.lt_def] at hx
        rw [BitVec.lt_def]
        by_cases hjl : j = 4 * g + (k - 1)
        · subst hjl; exact hx
        · refine Nat.lt_of_le_of_lt ?_ hx
          exact List.pairwise_iff_getElem.1 h.sorted _ _ hj hl (by
            by_cases h4 : 4 * g + 4 ≤ n
            · have := hmin h4; omega
            · have := hend h4; omega)
      have hpre : SeekPre n st buf m1 prev xs := ⟨h.blk, h.room, by rw [hb]; exact h.stream, h.sorted⟩
      obtain ⟨i, m2, b1, b2, b3⟩ := ih (g + 1) m1 hpre (by omega) hlt'
      refine ⟨i, m2, ?_, b2, fun q hq => by rw [b3 q hq, hf4 q hq]⟩
      rcases r with _ | r
      · rw [seekFrom] at b1 ⊢; exact b1
      · have h4 : 4 * g + 4 ≤ n := by unfold ctrlLen at hg; omega
        have hk4 := hmin h4
        subst hk4
        rw [← b1, hb]
        have hp := numPos_succ (s := bytesOf m st) (k := g) h4
        rw [bytesOf_getD _ _ _ (by omega)] at hp
        have hlv : xs[4 * g + (4 - 1)] = (xs.take (4 * (g + 1))).getLast?.getD prev := by
          rw [List.getLast?_eq_getElem?, List.length_take, Nat.min_eq_left (by omega), List.getElem?_take_of_lt (by omega),
            List.getElem?_eq_getElem (by omega), Option.getD_some]
          rfl
        rw [hp, hlv, Int.natCast_add]
        rfl

/-- C90: whatever stream `st` holds, if its numbers are sorted, the search finds the place of the first number not less than `x`, or
`n` if there is none; only the buffer has changed. -/
theorem C90_seek {n : Nat} {x : U32} {st : Bytes} {buf : U32s} {m : Mem} {prev : U32} {xs : List U32}
    (h : SeekPre n st buf m prev xs) :
    ∃ i m', run (seek n x st buf prev) m = (.ok i, m') ∧ SeekAt xs x i ∧ ∀ q, ¬ inPrefix buf 4 q → m' q = m q := by
  have := loop_run (x := x) (ctrlLen n) 0 m h (by omega) (fun j _ hj => by omega)
  simp only [numPos, Nat.mul_zero, List.take_zero, List.sum_nil, Nat.add_zero] at this
  exact this

/-- C90: so the search tells whether `x` is in the stream. -/
theorem C90_member {n : Nat} {x : U32} {st : Bytes} {buf : U32s} {m m' : Mem} {prev : U32} {xs : List U32} {i : Nat}
    (h : SeekPre n st buf m prev xs) (hr : run (seek n x st buf prev) m = (.ok i, m')) : x ∈ xs ↔ xs[i]? = some x := by
  obtain ⟨i', m1, h1, ⟨-, h3, h4⟩, -⟩ := C90_seek (x := x) h
  rw [hr, Prod.mk.injEq, Outcome.ok.injEq] at h1
  obtain ⟨rfl, rfl⟩ := h1
  refine ⟨fun hx => ?_, fun hx => List.mem_of_getElem? hx⟩
  obtain ⟨j, hj, rfl⟩ := List.mem_iff_getElem.1 hx
  have hij : i ≤ j := Nat.le_of_not_lt fun hc => by
    have := h3 j hj hc
    rw [BitVec.lt_def] at this
    omega
  have hi : i < xs.length := by omega
  rw [List.getElem?_eq_getElem hi, Option.some.injEq]
  have u := h4 i hi (Nat.le_refl _)
  rw [BitVec.le_def] at u
  by_cases e : i = j
  · subst e; rfl
  · have := List.pairwise_iff_getElem.1 h.sorted i j hi hj (by omega)
    exact BitVec.eq_of_toNat_eq (by omega)

/-- C90: in a stream that any delta writer has returned for sorted numbers, the search finds the place. -/
theorem C90_written (f : Fn) {fresh : Block} {inn : U32s} {m : Mem} {prev x : U32} {buf : U32s} (h : WriterPre fresh inn m)
    (hs : (wordsOf m inn).Pairwise fun a b => a.toNat ≤ b.toNat) (hb : buf.blk ≠ fresh) (hr : 4 ≤ buf.len) :
    ∃ r m1 i m2, run (f.writeDelta fresh inn prev) m = (.ok r, m1) ∧ run (seek inn.len x r buf prev) m1 = (.ok i, m2) ∧
      SeekAt (wordsOf m inn) x i := by
  obtain ⟨r, m1, h1, hblk, hbytes⟩ : ∃ r m1, run (f.writeDelta fresh inn prev) m = (.ok r, m1) ∧ r.blk = fresh ∧
      bytesOf m1 r = encode (delta prev (wordsOf m inn)) := by
    obtain ⟨m1, h1, h2, -⟩ := (writeDelta_result f prev h).ex
    exact ⟨_, m1, h1, rfl, h2⟩
  have hd := decodeDelta_encode prev (wordsOf m inn) []
  rw [List.append_nil, ← hbytes, wordsOf_length] at hd
  obtain ⟨i, m2, h3, h4, -⟩ := C90_seek (x := x) (m := m1) (st := r) (buf := buf) ⟨by rw [hblk]; exact hb.symm, hr, hd, hs⟩
  exact ⟨r, m1, i, m2, h1, h3, h4⟩

/-- C90: the numbers must be sorted: of `9, 2, 3, 1` the search says that none is 5 or more. -/
theorem C90_unsorted : (run (seek 4 5 ⟨.heap 1, 0, 11, 11⟩ ⟨.heap 0, 0, 4, 4⟩ 0)
    (memWith [0, 0, 0, 0] (encode (delta 0 [9, 2, 3, 1])))).1 = .ok 4 ∧ (5 : U32) ≤ 9 := by
  refine ⟨?_, by decide⟩
  decide +kernel

/-! An instance: seven sorted numbers, and the two kinds of answers. -/

def exSeekMem : Mem := memWith [0, 0, 0, 0] (encode (delta 0 [1, 301, 304, 304, 317, 324, 70324]) ++ [8])

example : SeekPre 7 ⟨.heap 1, 0, 13, 20⟩ ⟨.heap 0, 0, 4, 4⟩ exSeekMem 0 [1, 301, 304, 304, 317, 324, 70324] :=
  ⟨by decide, by decide, by decide +kernel, by decide⟩
example : SeekAt [1, 301, 304, 304, 317, 324, 70324] 302 2 := by
  refine ⟨by decide, ?_, ?_⟩ <;> decide
example : SeekAt [1, 301, 304, 304, 317, 324, 70324] 70325 7 := by
  refine ⟨by decide, ?_, ?_⟩ <;> decide

end SVB.Props
