import Verif.Model.ReadmeCode
import Verif.Model.Decode
import Verif.Proofs.Blocks
import Verif.Proofs.Results
import Verif.Props.Tables
import Verif.Props.Blocks

/-! # C65: Group Varint, the README's program, packing -/

set_option autoImplicit false

namespace SVB.Props
open Spec

/-! ## Group Varint -/

/-- Groups of four, the last one may be shorter. -/
def groupsOf4 : List U32 → List (List U32)
  | [] => []
  | x :: xs => (x :: xs.take 3) :: groupsOf4 (xs.drop 3)
termination_by xs => xs.length
decreasing_by simp only [List.length_drop, List.length_cons]; omega

/-- The Group Varint format (`/repo/README.md:215-248`): every group has its control byte in front. -/
def groupVarint (xs : List U32) : List Byte := (groupsOf4 xs).flatMap fun g => ctrlByte g :: dataBytes g

private theorem groups_nil : groupsOf4 [] = [] := by rw [groupsOf4]
private theorem groups_cons (x : U32) (xs : List U32) : groupsOf4 (x :: xs) = (x :: xs.take 3) :: groupsOf4 (xs.drop 3) := by
  rw [groupsOf4]

private theorem ctrls_groups (xs : List U32) : ctrls xs = (groupsOf4 xs).map ctrlByte := by
  induction xs using groupsOf4.induct with
  | case1 => rw [groups_nil, ctrls]; rfl
  | case2 x xs ih => rw [groups_cons, ctrls, List.map_cons, ih]

private theorem flatten_groups (xs : List U32) : (groupsOf4 xs).flatten = xs := by
  induction xs using groupsOf4.induct with
  | case1 => rw [groups_nil]; rfl
  | case2 x xs ih => rw [groups_cons, List.flatten_cons, ih, List.cons_append, List.take_append_drop]

private theorem data_groups (gs : List (List U32)) : dataBytes gs.flatten = gs.flatMap dataBytes := by
  induction gs with
  | nil => rfl
  | cons g gs ih => rw [List.flatten_cons, dataBytes_append, ih, List.flatMap_cons]

/-- C65: Stream VByte is Group Varint with the control bytes moved to the front: both are made of the same control bytes and
the same data bytes, group by group. -/
theorem C65_same_format (xs : List U32) :
    groupVarint xs = (groupsOf4 xs).flatMap (fun g => ctrlByte g :: dataBytes g) ∧
    encode xs = (groupsOf4 xs).map ctrlByte ++ (groupsOf4 xs).flatMap dataBytes := by
  refine ⟨rfl, ?_⟩
  rw [encode, ctrls_groups, ← data_groups, flatten_groups]

private theorem groups_length (xs : List U32) : (groupsOf4 xs).length = (xs.length + 3) / 4 := by
  induction xs using groupsOf4.induct with
  | case1 => rw [groups_nil]; rfl
  | case2 x xs ih => rw [groups_cons, List.length_cons, ih, List.length_drop, List.length_cons]; omega

private theorem flatMap_cons_length {α β : Type} (f : α → β) (h : α → List β) (gs : List α) :
    (gs.flatMap fun g => f g :: h g).length = gs.length + (gs.flatMap h).length := by
  induction gs with
  | nil => rfl
  | cons g gs ih => simp only [List.flatMap_cons, List.length_append, List.length_cons, ih]; omega

/-- C65: both have the same size; the control bytes cost one byte for every four numbers, 256 KB for 2^20 numbers. -/
theorem C65_size (xs : List U32) :
    (groupVarint xs).length = (encode xs).length ∧ (encode xs).length = (xs.length + 3) / 4 + (dataBytes xs).length ∧
    (xs.length = 2 ^ 20 → (encode xs).length = 256 * 1024 + (dataBytes xs).length) := by
  have h2 : (encode xs).length = (xs.length + 3) / 4 + (dataBytes xs).length := by
    rw [encode, List.length_append, ctrls_groups, List.length_map, groups_length]
  refine ⟨?_, h2, fun h => by rw [h2, h]⟩
  rw [groupVarint, flatMap_cons_length, groups_length, h2, ← data_groups, flatten_groups]

/-- Decoding Group Varint: `n` numbers, group by group. -/
def decodeGroupVarint : Nat → List Byte → Option (List U32)
  | 0, _ => some []
  | _ + 1, [] => none
  | n + 1, c :: bs =>
    let ls := codeLens (min (n + 1) 4) c.toNat
    match readNums ls bs, decodeGroupVarint (n - 3) (bs.drop ls.sum) with
    | some g, some xs => some (g ++ xs)
    | _, _ => none
termination_by n => n
decreasing_by omega

private theorem readNums_group (g : List U32) (hg : g.length ≤ 4) (t : List Byte) :
    readNums (codeLens g.length (ctrlByte g).toNat) (dataBytes g ++ t) = some g ∧
    (codeLens g.length (ctrlByte g).toNat).sum = (dataBytes g).length := by
  rw [ctrlByte_toNat hg, codeLens_ctrlNat, dataBytes_length]
  exact ⟨readNums_data g t, rfl⟩

/-- C65: Group Varint round trip; bytes behind are ignored. -/
theorem C65_groupVarint (xs : List U32) (t : List Byte) : decodeGroupVarint xs.length (groupVarint xs ++ t) = some xs := by
  induction xs using groupsOf4.induct with
  | case1 => rw [List.length_nil, decodeGroupVarint]
  | case2 x xs ih =>
    have hl : (x :: xs.take 3).length = min (xs.length + 1) 4 := by rw [List.length_cons, List.length_take]; omega
    obtain ⟨h1, h2⟩ := readNums_group (x :: xs.take 3) (by rw [hl]; omega) (groupVarint (xs.drop 3) ++ t)
    have e : groupVarint (x :: xs) ++ t =
        ctrlByte (x :: xs.take 3) :: (dataBytes (x :: xs.take 3) ++ (groupVarint (xs.drop 3) ++ t)) := by
      rw [groupVarint, groups_cons, List.flatMap_cons, groupVarint]
      simp only [List.cons_append, List.append_assoc]
    rw [hl] at h1 h2
    rw [e, List.length_cons, decodeGroupVarint]
    simp only [h1, h2]
    rw [List.drop_left, show xs.length - 3 = (xs.drop 3).length by rw [List.length_drop], ih]
    simp only [List.cons_append, List.take_append_drop]

/-! ## The README's program -/

section
variable {m : Mem} {input : Bytes} {fresh : Block}

private theorem or4 (b0 b1 b2 b3 : Byte) :
    (b0.setWidth 32 ||| b1.setWidth 32 <<< 8 ||| b2.setWidth 32 <<< 16 ||| b3.setWidth 32 <<< 24 : U32).toNat =
      b0.toNat + 256 * (b1.toNat + 256 * (b2.toNat + 256 * b3.toNat)) := by
  rw [← le4 b0 b1 b2 b3]
  generalize b0.setWidth 32 = a
  generalize b1.setWidth 32 <<< 8 = b
  generalize b2.setWidth 32 <<< 16 = c
  generalize b3.setWidth 32 <<< 24 = d
  have : a ||| b ||| c ||| d = d ||| c ||| b ||| a := by ac_rfl
  rw [this]

/-- Memory after copying `n` bytes from `⟨b, o⟩` to `⟨fresh, a⟩`. -/
private def copied (m : Mem) (fresh : Block) (a : Nat) (b : Block) (o n : Nat) : Mem := fun q =>
  if q.blk = fresh ∧ a ≤ q.off ∧ q.off < a + n then m ⟨b, o + (q.off - a)⟩ else m q

private theorem copyLoop_run {α : Type} (k : Unit → Prog α) {b : Block} (hf : b ≠ fresh) (n : Nat) : ∀ (a o : Nat) (m : Mem),
    run ((ReadmeCode.copyLoop ⟨fresh, a⟩ ⟨b, o⟩ n).bind k) m = run (k ()) (copied m fresh a b o n) := by
  induction n with
  | zero =>
    intro a o m
    have e : copied m fresh a b o 0 = m := by
      funext q
      rw [copied, if_neg (by omega)]
    rw [e]
    rfl
  | succ n ih =>
    intro a o m
    have h := ih (a + 1) (o + 1) (m.set ⟨fresh, a⟩ (m ⟨b, o⟩))
    have e : copied (m.set ⟨fresh, a⟩ (m ⟨b, o⟩)) fresh (a + 1) b (o + 1) n = copied m fresh a b o (n + 1) := by
      funext q
      obtain ⟨qb, qo⟩ := q
      simp only [copied, Mem.set, Ptr.mk.injEq]
      by_cases hq : qb = fresh
      · subst hq
        by_cases h1 : a + 1 ≤ qo ∧ qo < a + 1 + n
        · rw [if_pos ⟨rfl, h1⟩, if_neg (fun e => hf e.1), if_pos ⟨rfl, by omega, by omega⟩]
          congr 2
          omega
        · rw [if_neg (fun e => h1 e.2)]
          by_cases h2 : qo = a
          · subst h2
            rw [if_pos ⟨rfl, rfl⟩, if_pos ⟨rfl, by omega, by omega⟩, Nat.sub_self, Nat.add_zero]
          · rw [if_neg (fun e => h2 e.2), if_neg (by omega)]
      · rw [if_neg (fun e => hq e.1), if_neg (fun e => hq e.1), if_neg (fun e => hq e.1)]
    rw [← e, ← h]
    rfl

private theorem leUint32_run (m : Mem) : run (ReadmeCode.leUint32 ⟨fresh, 0, 4, 4⟩) m =
    (.ok (BitVec.ofNat 32 (leNat m fresh 0 4)), m) := by
  have h : run (ReadmeCode.leUint32 ⟨fresh, 0, 4, 4⟩) m = (.ok ((m ⟨fresh, 0⟩).setWidth 32 ||| (m ⟨fresh, 1⟩).setWidth 32 <<< 8 |||
      (m ⟨fresh, 2⟩).setWidth 32 <<< 16 ||| (m ⟨fresh, 3⟩).setWidth 32 <<< 24), m) := rfl
  rw [h]
  congr 2
  apply BitVec.eq_of_toNat_eq
  have hb := leNat_lt m fresh 0 4
  rw [or4, BitVec.toNat_ofNat, Nat.mod_eq_of_lt (by simpa using hb)]
  simp only [leNat, Nat.zero_add, Nat.mul_zero, Nat.add_zero]

/-- C65: the README's `decodeOne` returns the little-endian value of the first `size` bytes (of at most four) and writes only to
its own buffer.  It reads them if they are within the capacity of `input`. -/
theorem C65_decodeOne (size : Byte) (hf : input.blk ≠ fresh) (hc : size.toNat ≤ input.cap) :
    ∃ m', run (ReadmeCode.decodeOne fresh input size) m =
        (.ok (BitVec.ofNat 32 (leNat m input.blk input.off (min 4 size.toNat))), m') ∧
      ∀ q, q.blk ≠ fresh → m' q = m q := by
  have hr : input.range 0 (size.toNat : Int) = .ret ⟨input.blk, input.off, size.toNat, input.cap⟩ := by
    rw [Slice.range, if_pos ⟨Int.le_refl 0, by omega, by omega⟩]
    simp
  have h0 : run (ReadmeCode.decodeOne fresh input size) m =
      run ((input.range 0 (size.toNat : Int)).bind fun r => (ReadmeCode.copyBytes ⟨fresh, 0, 4, 4⟩ r).bind fun _ =>
        ReadmeCode.leUint32 ⟨fresh, 0, 4, 4⟩)
        ((((m.set ⟨fresh, 0⟩ 0).set ⟨fresh, 1⟩ 0).set ⟨fresh, 2⟩ 0).set ⟨fresh, 3⟩ 0) := rfl
  have hz : ∀ i, i < 4 → ((((m.set ⟨fresh, 0⟩ 0).set ⟨fresh, 1⟩ 0).set ⟨fresh, 2⟩ 0).set ⟨fresh, 3⟩ 0) ⟨fresh, i⟩ = 0 := by
    intro i hi
    simp only [Mem.set, Ptr.mk.injEq, true_and]
    obtain rfl | rfl | rfl | rfl : i = 0 ∨ i = 1 ∨ i = 2 ∨ i = 3 := by omega
    all_goals rfl
  have ho : ∀ q : Ptr, q.blk ≠ fresh → ((((m.set ⟨fresh, 0⟩ 0).set ⟨fresh, 1⟩ 0).set ⟨fresh, 2⟩ 0).set ⟨fresh, 3⟩ 0) q = m q := by
    intro q hq
    have : ∀ j, q ≠ ⟨fresh, j⟩ := fun j e => hq (congrArg Ptr.blk e)
    simp only [Mem.set, if_neg (this _)]
  generalize ((((m.set ⟨fresh, 0⟩ 0).set ⟨fresh, 1⟩ 0).set ⟨fresh, 2⟩ 0).set ⟨fresh, 3⟩ 0) = mz at h0 hz ho
  rw [hr, Prog.ret_bind] at h0
  have hc := copyLoop_run (fresh := fresh) (fun _ => ReadmeCode.leUint32 ⟨fresh, 0, 4, 4⟩) hf (min 4 size.toNat) 0 input.off mz
  refine ⟨copied mz fresh 0 input.blk input.off (min 4 size.toNat), ?_, fun q hq => ?_⟩
  · rw [h0]
    refine hc.trans ?_
    rw [leUint32_run]
    have hv : ∀ i, i < 4 → copied mz fresh 0 input.blk input.off (min 4 size.toNat) ⟨fresh, i⟩ =
        if i < min 4 size.toNat then m ⟨input.blk, input.off + i⟩ else 0 := by
      intro i hi
      simp only [copied, true_and, Nat.zero_le, Nat.zero_add, Nat.sub_zero]
      split
      · exact ho _ hf
      · exact hz i hi
    have v0 := hv 0 (by omega); have v1 := hv 1 (by omega); have v2 := hv 2 (by omega); have v3 := hv 3 (by omega)
    have hn : min 4 size.toNat ≤ 4 := Nat.min_le_left _ _
    generalize min 4 size.toNat = n at *
    congr 3
    simp only [leNat, Nat.zero_add, Nat.reduceAdd, v0, v1, v2, v3]
    obtain rfl | rfl | rfl | rfl | rfl : n = 0 ∨ n = 1 ∨ n = 2 ∨ n = 3 ∨ n = 4 := by omega
    all_goals simp [leNat, Nat.add_assoc]
  · rw [copied, if_neg (fun e => hq e.1)]
    exact ho q hq

/-- … and panics if they are not. -/
theorem C65_decodeOne_panic (size : Byte) (hc : input.cap < size.toNat) :
    ∃ m', run (ReadmeCode.decodeOne fresh input size) m = (.panic .slice, m') := by
  have hr : input.range 0 (size.toNat : Int) = .panic .slice := by
    rw [Slice.range, if_neg (by omega)]
  have h0 : run (ReadmeCode.decodeOne fresh input size) m =
      run ((input.range 0 (size.toNat : Int)).bind fun r => (ReadmeCode.copyBytes ⟨fresh, 0, 4, 4⟩ r).bind fun _ =>
        ReadmeCode.leUint32 ⟨fresh, 0, 4, 4⟩)
        ((((m.set ⟨fresh, 0⟩ 0).set ⟨fresh, 1⟩ 0).set ⟨fresh, 2⟩ 0).set ⟨fresh, 3⟩ 0) := rfl
  rw [hr, Prog.panic_bind] at h0
  exact ⟨_, h0⟩

/-- C65: where the library's `decodeOne` returns (sizes 1 to 4 with as many bytes in the slice), both return the same. -/
theorem C65_decodeOne_same (size : Byte) (hf : input.blk ≠ fresh) (h1 : 1 ≤ size.toNat) (h4 : size.toNat ≤ 4)
    (hl : size.toNat ≤ input.len) (hc : input.len ≤ input.cap) :
    ∃ r m', run (ReadmeCode.decodeOne fresh input size) m = (.ok r, m') ∧ run (decodeOne input size) m = (.ok r, m) ∧
      r.toNat = leValue ((bytesOf m input).take size.toNat) := by
  obtain ⟨m', hr, -⟩ := C65_decodeOne (m := m) size hf (by omega)
  obtain ⟨r, m'', h2, ⟨-, h3, rfl⟩, -⟩ := run_of_wp (decodeOne_spec input size size.toNat rfl h1 h4 m) (fun _ _ h => by omega)
  have e : r = BitVec.ofNat 32 (leNat m input.blk input.off (min 4 size.toNat)) := by
    apply BitVec.eq_of_toNat_eq
    rw [h3, BitVec.toNat_ofNat, Nat.min_eq_right h4, ← h3, Nat.mod_eq_of_lt r.isLt]
  have := leValue_take m input size.toNat 0 (by omega)
  rw [List.drop_zero, Nat.add_zero] at this
  exact ⟨r, m', by rw [hr, e], h2, by rw [h3, this]⟩

private theorem len_toNat (c : Byte) (k : Nat) : ((c >>> (2 * k) &&& 3) + 1 : Byte).toNat = csz c.toNat k := by
  have h : (c >>> (2 * k) &&& 3 : Byte).toNat = c.toNat / 4 ^ k % 4 := by
    rw [BitVec.toNat_and, BitVec.toNat_ushiftRight, Nat.shiftRight_eq_div_pow, Nat.pow_mul]
    exact Nat.and_two_pow_sub_one_eq_mod _ 2
  rw [BitVec.toNat_add, h, csz]
  show (c.toNat / 4 ^ k % 4 + 1) % 256 = _
  omega

/-- The README's four steps, for data that reach far enough.  `data.len` counts only for where the last number begins, the
number itself is read up to the capacity. -/
theorem C65_program_cap {data : Bytes} (fr : Nat → Block) (hf : ∀ k < 4, data.blk ≠ fr k) (ctrl : Byte)
    (hl : (codeLens 3 ctrl.toNat).sum ≤ data.len) (hlc : data.len ≤ data.cap) (hc : (codeLens 4 ctrl.toNat).sum ≤ data.cap) :
    ∃ xs m', run (ReadmeCode.main fr ctrl data) m = (.ok xs, m') ∧ (∀ q, (∀ k < 4, q.blk ≠ fr k) → m' q = m q) ∧
      readNums (codeLens 4 ctrl.toNat) (bytesOf m ⟨data.blk, data.off, data.cap, data.cap⟩) = some xs := by
  have l0 : ((ctrl &&& 3) + 1 : Byte).toNat = csz ctrl.toNat 0 := by
    have := len_toNat ctrl 0
    simpa using this
  have l1 : ((ctrl >>> 2 &&& 3) + 1 : Byte).toNat = csz ctrl.toNat 1 := len_toNat ctrl 1
  have l2 : ((ctrl >>> 4 &&& 3) + 1 : Byte).toNat = csz ctrl.toNat 2 := len_toNat ctrl 2
  have l3 : ((ctrl >>> 6 &&& 3) + 1 : Byte).toNat = csz ctrl.toNat 3 := len_toNat ctrl 3
  rw [codeLens_sum] at hl hc
  simp only [psum, Nat.zero_add] at hl hc
  have b0 := csz_bounds ctrl.toNat 0
  have b1 := csz_bounds ctrl.toNat 1
  have b2 := csz_bounds ctrl.toNat 2
  have b3 := csz_bounds ctrl.toNat 3
  rw [readNums_block, codeLens_sum, if_pos (by simp only [psum, Nat.zero_add]; exact hc)]
  unfold ReadmeCode.main
  generalize ((ctrl &&& 3) + 1 : Byte) = w0 at *
  generalize ((ctrl >>> 2 &&& 3) + 1 : Byte) = w1 at *
  generalize ((ctrl >>> 4 &&& 3) + 1 : Byte) = w2 at *
  generalize ((ctrl >>> 6 &&& 3) + 1 : Byte) = w3 at *
  have s1 : (w0 + w1).toNat = csz ctrl.toNat 0 + csz ctrl.toNat 1 := by rw [BitVec.toNat_add]; omega
  have s2 : (w0 + w1 + w2).toNat = csz ctrl.toNat 0 + csz ctrl.toNat 1 + csz ctrl.toNat 2 := by rw [BitVec.toNat_add]; omega
  have hd : ∀ a : Nat, a ≤ data.len → data.from (a : Int) = .ret ⟨data.blk, data.off + a, data.len - a, data.cap - a⟩ := by
    intro a ha
    rw [Slice.from, if_pos ⟨by omega, by omega⟩]
    simp
  have hle : ∀ (m1 m2 : Mem), (∀ q, (∀ k < 4, q.blk ≠ fr k) → m1 q = m2 q) → ∀ n o, leNat m1 data.blk o n = leNat m2 data.blk o n := by
    intro m1 m2 he n
    induction n with
    | zero => intro o; rfl
    | succ n ih => intro o; rw [leNat, leNat, ih, he _ hf]
  simp only [Prog.bind_eq, Prog.pure_eq, l0, s1, s2]
  rw [hd _ (by omega), hd _ (by omega), hd _ (by omega)]
  simp only [Prog.ret_bind]
  obtain ⟨m1, r1, f1⟩ := C65_decodeOne (m := m) (input := data) (fresh := fr 0) w0 (hf 0 (by omega)) (by omega)
  obtain ⟨m2, r2, f2⟩ := C65_decodeOne (m := m1) (input := ⟨data.blk, data.off + csz ctrl.toNat 0, data.len - csz ctrl.toNat 0,
    data.cap - csz ctrl.toNat 0⟩) (fresh := fr 1) w1 (hf 1 (by omega)) (by show _ ≤ data.cap - _; omega)
  obtain ⟨m3, r3, f3⟩ := C65_decodeOne (m := m2) (input := ⟨data.blk, data.off + (csz ctrl.toNat 0 + csz ctrl.toNat 1),
    data.len - (csz ctrl.toNat 0 + csz ctrl.toNat 1), data.cap - (csz ctrl.toNat 0 + csz ctrl.toNat 1)⟩) (fresh := fr 2) w2
    (hf 2 (by omega)) (by show _ ≤ data.cap - _; omega)
  obtain ⟨m4, r4, f4⟩ := C65_decodeOne (m := m3) (input := ⟨data.blk, data.off + (csz ctrl.toNat 0 + csz ctrl.toNat 1 + csz ctrl.toNat 2),
    data.len - (csz ctrl.toNat 0 + csz ctrl.toNat 1 + csz ctrl.toNat 2),
    data.cap - (csz ctrl.toNat 0 + csz ctrl.toNat 1 + csz ctrl.toNat 2)⟩) (fresh := fr 3) w3
    (hf 3 (by omega)) (by show _ ≤ data.cap - _; omega)
  have g1 : ∀ q, (∀ k < 4, q.blk ≠ fr k) → m1 q = m q := fun q hq => f1 q (hq 0 (by omega))
  have g2 : ∀ q, (∀ k < 4, q.blk ≠ fr k) → m2 q = m q := fun q hq => (f2 q (hq 1 (by omega))).trans (g1 q hq)
  have g3 : ∀ q, (∀ k < 4, q.blk ≠ fr k) → m3 q = m q := fun q hq => (f3 q (hq 2 (by omega))).trans (g2 q hq)
  have g4 : ∀ q, (∀ k < 4, q.blk ≠ fr k) → m4 q = m q := fun q hq => (f4 q (hq 3 (by omega))).trans (g3 q hq)
  refine ⟨_, m4, ?_, g4, rfl⟩
  simp only [run_bind, r1, r2, r3, r4]
  simp only [run]
  rw [hle _ _ g1, hle _ _ g2, hle _ _ g3, l0, l1, l2, l3, Nat.min_eq_right b0.2, Nat.min_eq_right b1.2, Nat.min_eq_right b2.2,
    Nat.min_eq_right b3.2]
  simp only [show List.range 4 = [0, 1, 2, 3] from rfl, List.map_cons, List.map_nil, bd, psum, Nat.zero_add, Nat.add_zero]

/-- C65: the README's program finds the four numbers of a group, and `Get4uint32Scalar` of the library stores the same four. -/
theorem C65_program {data : Bytes} {out : U32s} (fr : Nat → Block) (hf : ∀ k < 4, data.blk ≠ fr k) (ctrl : Byte)
    (hlc : data.len ≤ data.cap) (hp : BlockPre data out m) (ho : 4 ≤ out.len) (hs : (codeLens 4 ctrl.toNat).sum ≤ data.len) :
    ∃ xs m' m'', run (ReadmeCode.main fr ctrl data) m = (.ok xs, m') ∧ (∀ q, (∀ k < 4, q.blk ≠ fr k) → m' q = m q) ∧
      readNums (codeLens 4 ctrl.toNat) (bytesOf m data) = some xs ∧
      run (get4uint32Scalar data out ctrl) m = (.ok (), m'') ∧ wordsN m'' out 4 = xs := by
  have hs' := hs
  rw [codeLens_sum] at hs'
  have h3 : (codeLens 3 ctrl.toNat).sum ≤ data.len := by
    rw [codeLens_sum]
    simp only [psum] at hs' ⊢
    omega
  obtain ⟨xs, m', h1, h2, h3⟩ := C65_program_cap (m := m) fr hf ctrl h3 hlc (by omega)
  have e : readNums (codeLens 4 ctrl.toNat) (bytesOf m data) = some xs := by
    rw [← h3, readNums_block, readNums_block, if_pos hs, if_pos (show _ ≤ data.cap by omega)]
    rfl
  obtain ⟨m'', r, w⟩ := (get4_res ctrl hp).good ⟨ho, hs'⟩
  refine ⟨xs, m', m'', h1, h2, e, r, ?_⟩
  rw [readNums_block, if_pos hs] at e
  rw [w]
  exact Option.some.inj e

/-- C65: an encoded group decoded by the README's program. -/
theorem C65_program_roundtrip {data : Bytes} (fr : Nat → Block) (hf : ∀ k < 4, data.blk ≠ fr k) (hlc : data.len ≤ data.cap)
    {g : List U32} (hg : g.length = 4) {t : List Byte} (hb : bytesOf m data = dataBytes g ++ t) :
    (run (ReadmeCode.main fr (ctrlByte g) data) m).1 = .ok g := by
  obtain ⟨r1, r2⟩ := readNums_group g (by omega) t
  rw [hg] at r1 r2
  have hlen : (bytesOf m data).length = data.len := by simp [bytesOf]
  have hs : (codeLens 4 (ctrlByte g).toNat).sum ≤ data.len := by
    rw [r2, ← hlen, hb, List.length_append]
    omega
  have h3 : (codeLens 3 (ctrlByte g).toNat).sum ≤ data.len := by
    rw [codeLens_sum] at hs ⊢
    simp only [psum] at hs ⊢
    omega
  obtain ⟨xs, m', h1, -, h4⟩ := C65_program_cap (m := m) fr hf (ctrlByte g) h3 hlc (by omega)
  rw [h1, Outcome.ok.injEq]
  rw [readNums_block, if_pos (show _ ≤ data.cap by omega)] at h4
  rw [← hb, readNums_block, if_pos hs] at r1
  exact Option.some.inj (h4.symm.trans r1)

end

/-! ## Packing and unpacking by a shuffle, `/repo/README.md:447-485` -/

/-- A vector shuffle: every place of the mask names the byte of `src` that goes there; places with the top bit set get zero. -/
def shuffle (mask : List Nat) (src : List Byte) : List Byte := mask.map fun e => if 128 ≤ e then 0 else src.getD e 0

/-- A number in memory: four bytes, least significant first. -/
def raw (v : U32) : List Byte := (List.range 4).map fun k => BitVec.ofNat 8 (v.toNat / 256 ^ k)

private theorem enc_rows : ∀ c < 256, encodeShuffleTable.getD c [] =
    (List.range (c % 4 + 1)).map (0 + ·) ++ ((List.range (c / 4 % 4 + 1)).map (4 + ·) ++ ((List.range (c / 16 % 4 + 1)).map (8 + ·) ++
      ((List.range (c / 64 % 4 + 1)).map (12 + ·) ++
        List.replicate (12 - (c % 4 + c / 4 % 4 + c / 16 % 4 + c / 64 % 4)) 255))) := by decide +kernel

private theorem dec_rows : ∀ c < 256, decodeShuffleTable.getD c [] =
    (List.range 4).map (fun k => if k < c % 4 + 1 then k else 255) ++
    ((List.range 4).map (fun k => if k < c / 4 % 4 + 1 then (c % 4 + 1) + k else 255) ++
    ((List.range 4).map (fun k => if k < c / 16 % 4 + 1 then (c % 4 + 1) + ((c / 4 % 4 + 1) + k) else 255) ++
    (List.range 4).map (fun k => if k < c / 64 % 4 + 1 then (c % 4 + 1) + ((c / 4 % 4 + 1) + ((c / 16 % 4 + 1) + k)) else 255))) := by
  decide +kernel

private theorem byteLen_bounds (v : U32) : 1 ≤ byteLen v ∧ byteLen v ≤ 4 := by
  unfold byteLen
  split
  · omega
  · split
    · omega
    · split <;> omega

private theorem ctrl4 (a b c d : U32) : ∃ w : Nat, (ctrlByte [a, b, c, d]).toNat = w ∧ w < 256 ∧ w % 4 + 1 = byteLen a ∧
    w / 4 % 4 + 1 = byteLen b ∧ w / 16 % 4 + 1 = byteLen c ∧ w / 64 % 4 + 1 = byteLen d := by
  have h := ctrlByte_toNat (g := [a, b, c, d]) (Nat.le_refl 4)
  have ha := byteLen_bounds a; have hb := byteLen_bounds b; have hc := byteLen_bounds c; have hd := byteLen_bounds d
  refine ⟨_, rfl, (ctrlByte [a, b, c, d]).isLt, ?_⟩
  rw [h]
  simp only [ctrlNat]
  omega

private theorem shuffle_append (m₁ m₂ : List Nat) (src : List Byte) : shuffle (m₁ ++ m₂) src = shuffle m₁ src ++ shuffle m₂ src :=
  List.map_append

private theorem pack_one (v : U32) (pre post : List Byte) (o : Nat) (ho : pre.length = o) (h : o ≤ 12) :
    shuffle ((List.range (byteLen v)).map (o + ·)) (pre ++ (raw v ++ post)) = leBytes v := by
  have hb := byteLen_bounds v
  rw [shuffle, leBytes, List.map_map]
  apply List.map_congr_left
  intro k hk
  rw [List.mem_range] at hk
  simp only [Function.comp_apply]
  rw [if_neg (by omega), List.getD_eq_getElem?_getD, List.getElem?_append_right (by omega), ho, Nat.add_sub_cancel_left,
    List.getElem?_append_left (by simp [raw]; omega)]
  simp [raw, List.getElem?_range (show k < 4 by omega)]

/-- C65: the row of `EncodeShuffleTable` for the control byte packs four numbers: their data bytes, then zeros. -/
theorem C65_pack (a b c d : U32) :
    shuffle (encodeShuffleTable.getD (ctrlByte [a, b, c, d]).toNat []) (raw a ++ raw b ++ raw c ++ raw d) =
      dataBytes [a, b, c, d] ++ List.replicate (16 - (dataBytes [a, b, c, d]).length) 0 := by
  obtain ⟨w, hw, hlt, h0, h1, h2, h3⟩ := ctrl4 a b c d
  have ha := byteLen_bounds a; have hb := byteLen_bounds b; have hc := byteLen_bounds c; have hd := byteLen_bounds d
  have hlen : 12 - (w % 4 + w / 4 % 4 + w / 16 % 4 + w / 64 % 4) = 16 - (dataBytes [a, b, c, d]).length := by
    simp [dataBytes, leBytes]
    omega
  rw [hw, enc_rows w hlt, h0, h1, h2, h3, hlen]
  simp only [shuffle_append]
  have e0 := pack_one a [] (raw b ++ (raw c ++ raw d)) 0 rfl (by omega)
  have e1 := pack_one b (raw a) (raw c ++ raw d) 4 rfl (by omega)
  have e2 := pack_one c (raw a ++ raw b) (raw d) 8 rfl (by omega)
  have e3 := pack_one d (raw a ++ raw b ++ raw c) [] 12 rfl (by omega)
  simp only [List.nil_append, List.append_nil, List.append_assoc] at e0 e1 e2 e3 ⊢
  rw [e0, e1, e2, e3]
  simp [dataBytes, shuffle]

private theorem unpack_one (v : U32) (pre post : List Byte) (f : Nat → Nat) (hf : ∀ k < byteLen v, f k = pre.length + k)
    (hp : pre.length ≤ 12) :
    shuffle ((List.range 4).map fun k => if k < byteLen v then f k else 255) (pre ++ (leBytes v ++ post)) = raw v := by
  have hb := byteLen_bounds v
  rw [shuffle, raw, List.map_map]
  apply List.map_congr_left
  intro k hk
  rw [List.mem_range] at hk
  simp only [Function.comp_apply]
  by_cases h : k < byteLen v
  · rw [if_pos h, hf k h, if_neg (by omega), List.getD_eq_getElem?_getD, List.getElem?_append_right (by omega),
      Nat.add_sub_cancel_left, List.getElem?_append_left (by simp [leBytes]; omega)]
    simp [leBytes, List.getElem?_range h]
  · rw [if_neg h, if_pos (by omega)]
    have hz : v.toNat / 256 ^ k = 0 := by
      apply Nat.div_eq_of_lt
      have hlt : v.toNat < 256 ^ byteLen v := by
        have := v.isLt
        unfold byteLen
        split
        · simpa using ‹_›
        · split
          · simpa using ‹_›
          · split
            · simpa using ‹_›
            · simpa using this
      exact Nat.lt_of_lt_of_le hlt (Nat.pow_le_pow_right (by omega) (by omega))
    rw [hz]
    rfl

/-- C65: the row of `DecodeShuffleTable` unpacks them, whatever bytes `t` follow. -/
theorem C65_unpack (a b c d : U32) (t : List Byte) :
    shuffle (decodeShuffleTable.getD (ctrlByte [a, b, c, d]).toNat []) (dataBytes [a, b, c, d] ++ t) =
      raw a ++ raw b ++ raw c ++ raw d := by
  obtain ⟨w, hw, hlt, h0, h1, h2, h3⟩ := ctrl4 a b c d
  have ha := byteLen_bounds a; have hb := byteLen_bounds b; have hc := byteLen_bounds c; have hd := byteLen_bounds d
  have hl : ∀ v : U32, (leBytes v).length = byteLen v := fun v => by simp [leBytes]
  rw [hw, dec_rows w hlt, h0, h1, h2, h3]
  simp only [shuffle_append]
  have e0 := unpack_one a [] (leBytes b ++ (leBytes c ++ (leBytes d ++ t))) (fun k => k) (fun k _ => (Nat.zero_add k).symm) (by decide)
  have e1 := unpack_one b (leBytes a) (leBytes c ++ (leBytes d ++ t)) (fun k => byteLen a + k) (fun k _ => by rw [hl])
    (by rw [hl]; omega)
  have e2 := unpack_one c (leBytes a ++ leBytes b) (leBytes d ++ t) (fun k => byteLen a + (byteLen b + k))
    (fun k _ => by rw [List.length_append, hl, hl]; omega) (by rw [List.length_append, hl, hl]; omega)
  have e3 := unpack_one d (leBytes a ++ leBytes b ++ leBytes c) t (fun k => byteLen a + (byteLen b + (byteLen c + k)))
    (fun k _ => by simp only [List.length_append, hl]; omega) (by simp only [List.length_append, hl]; omega)
  have ed : dataBytes [a, b, c, d] ++ t = leBytes a ++ (leBytes b ++ (leBytes c ++ (leBytes d ++ t))) := by simp [dataBytes]
  simp only [List.nil_append, List.append_assoc] at e0 e1 e2 e3 ⊢
  rw [ed, e0, e1, e2, e3]

-- `README.md:464-475`: the mask begins with 00 01 04 05 06 for lengths 2, 3 (and 1, 1).
example : (encodeShuffleTable.getD (ctrlByte [1234, 789123, 0, 0]).toNat []).take 5 = [0x00, 0x01, 0x04, 0x05, 0x06] := by
  decide +kernel
example : shuffle [0x00, 0x01, 0x04, 0x05, 0x06, 0xff, 0xff, 0xff] (raw 1234 ++ raw 789123) =
    [0b11010010, 0b00000100, 0b10000011, 0b00001010, 0b00001100, 0, 0, 0] := by decide +kernel

/-! ## Examples: the numbers of the README -/

private def rmNums : List U32 := [111, 1234, 789123, 1073741824]

-- `README.md:223-242`: the control byte and the ten data bytes, as `main` has them.
example : ctrlByte rmNums = 0b11100100 ∧ dataBytes rmNums =
    [0b01101111, 0b11010010, 0b00000100, 0b10000011, 0b00001010, 0b00001100, 0b00000000, 0b00000000, 0b00000000, 0b01000000] := by
  decide +kernel

private def rmMem : Mem := fun q => if q.blk = .heap 0 then (dataBytes rmNums).getD q.off 0xee else 0
private def rmData : Bytes := ⟨.heap 0, 0, 10, 10⟩
private def rmFresh (k : Nat) : Block := .heap (k + 1)

example : (run (ReadmeCode.main rmFresh 0b11100100 rmData) rmMem).1 = .ok rmNums := by decide +kernel
example := C65_program_roundtrip (m := rmMem) (data := rmData) rmFresh (by decide) (by decide) (g := rmNums) rfl (t := [])
  (by decide +kernel)
example := C65_program_cap (m := rmMem) (data := rmData) rmFresh (by decide) 0b11100100 (by decide) (by decide) (by decide)
example := C65_program (m := exBlockMem) (data := exBlockBuf) (out := exBlockOut) (fun k => .heap (k + 10)) (by decide) 0xe4
  (by decide) exGet (by decide) (by decide)
example := C65_decodeOne (m := rmMem) (input := rmData) (fresh := .heap 7) 3 (by decide) (by decide)
example := C65_decodeOne_same (m := rmMem) (input := rmData) (fresh := .heap 7) 3 (by decide) (by decide) (by decide) (by decide)
  (by decide)
example := C65_decodeOne_panic (m := rmMem) (input := rmData) (fresh := .heap 7) 11 (by decide)

-- Two groups, the second with one number.
example : groupVarint (rmNums ++ [5]) = 0xe4 :: dataBytes rmNums ++ [0, 5] ∧
    encode (rmNums ++ [5]) = [0xe4, 0] ++ dataBytes rmNums ++ [5] := by decide +kernel
example := C65_same_format (rmNums ++ [5])
example := C65_size (rmNums ++ [5])
example : (List.replicate (2 ^ 20) (7 : U32)).length = 2 ^ 20 := List.length_replicate
example := C65_groupVarint (rmNums ++ [5]) [1, 2, 3]

/-- C65: the two `decodeOne` differ on a slice shorter than the number.  The README's slices up to the capacity and returns a
number made of bytes behind the slice; the library's panics. -/
theorem C65_decodeOne_differ :
    (run (ReadmeCode.decodeOne (.heap 7) ⟨.heap 0, 1, 1, 9⟩ 2) rmMem).1 = .ok 1234 ∧
    (run (decodeOne ⟨.heap 0, 1, 1, 9⟩ 2) rmMem).1 = .panic .index := by decide +kernel

end SVB.Props
