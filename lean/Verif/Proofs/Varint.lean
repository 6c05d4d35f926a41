import Verif.SpecUtil
import Verif.Model.Util
import Verif.Proofs.Wp
import Verif.Proofs.Arith
import Verif.Proofs.Bridge

/-! # The varint helpers: one number -/

set_option autoImplicit false

namespace SVB
open Spec

/-- The `l` bytes at an address. -/
def seq (m : Mem) (b : Block) (o l : Nat) : List Byte := (List.range l).map fun k => m ⟨b, o + k⟩

theorem seq_length (m : Mem) (b : Block) (o l : Nat) : (seq m b o l).length = l := by simp [seq]

theorem seq_zero (m : Mem) (b : Block) (o : Nat) : seq m b o 0 = [] := rfl

theorem seq_succ (m : Mem) (b : Block) (o l : Nat) : seq m b o (l + 1) = seq m b o l ++ [m ⟨b, o + l⟩] := by
  simp [seq, List.range_succ]

theorem seq_add (m : Mem) (b : Block) (o l k : Nat) : seq m b o (l + k) = seq m b o l ++ seq m b (o + l) k := by
  induction k with
  | zero => simp [seq_zero]
  | succ k ih => rw [← Nat.add_assoc, seq_succ, seq_succ, ih, List.append_assoc, Nat.add_assoc o l k]

theorem seq_cons (m : Mem) (b : Block) (o l : Nat) : seq m b o (l + 1) = m ⟨b, o⟩ :: seq m b (o + 1) l := by
  rw [Nat.add_comm l 1, seq_add]; rfl

theorem seq_congr {m m' : Mem} {b : Block} {o l : Nat} (h : ∀ k < l, m ⟨b, o + k⟩ = m' ⟨b, o + k⟩) :
    seq m b o l = seq m' b o l := by
  unfold seq
  exact List.map_congr_left fun k hk => h k (List.mem_range.1 hk)

theorem seq_take (m : Mem) (b : Block) (o : Nat) {l k : Nat} (h : k ≤ l) : (seq m b o l).take k = seq m b o k := by
  obtain ⟨d, rfl⟩ : ∃ d, l = k + d := ⟨l - k, by omega⟩
  rw [seq_add, List.take_left' (seq_length m b o k)]

theorem seq_drop (m : Mem) (b : Block) (o : Nat) {l k : Nat} (h : k ≤ l) :
    (seq m b o l).drop k = seq m b (o + k) (l - k) := by
  obtain ⟨d, rfl⟩ : ∃ d, l = k + d := ⟨l - k, by omega⟩
  rw [seq_add, List.drop_left' (seq_length m b o k)]
  congr 1; omega

theorem bytesOf_seq (m : Mem) (s : Bytes) : bytesOf m s = seq m s.blk s.off s.len := rfl

/-! ## Facts about the format -/

theorem varint_small {n : Nat} (h : n < 128) : varint n = [BitVec.ofNat 8 n] := by
  rw [varint, if_pos h]

theorem varint_big {n : Nat} (h : 128 ≤ n) :
    varint n = BitVec.ofNat 8 (n % 128 + 128) :: varint (n / 128) := by
  rw [varint, if_neg (by omega)]

theorem varint_length_pos (n : Nat) : 0 < (varint n).length := by
  by_cases h : n < 128
  · rw [varint_small h]; simp
  · rw [varint_big (by omega)]; simp

theorem varint_length_le {k : Nat} : ∀ {n : Nat}, n < 128 ^ (k + 1) → (varint n).length ≤ k + 1 := by
  induction k with
  | zero => intro n h; rw [varint_small (by simpa using h)]; simp
  | succ k ih =>
    intro n h
    by_cases hs : n < 128
    · rw [varint_small hs]; simp
    · rw [varint_big (by omega)]
      have := ih (n := n / 128) (by rw [Nat.div_lt_iff_lt_mul (by omega), ← Nat.pow_succ]; exact h)
      simp only [List.length_cons]; omega

theorem firstGroup_varint (n : Nat) (rest : List Byte) :
    firstGroup (varint n ++ rest) = some (varint n) := by
  induction n using Nat.strongRecOn with
  | ind n ih =>
    by_cases h : n < 128
    · rw [varint_small h]
      simp only [List.cons_append, List.nil_append, firstGroup, BitVec.toNat_ofNat]
      rw [if_pos (by omega)]
    · rw [varint_big (by omega)]
      simp only [List.cons_append, firstGroup, BitVec.toNat_ofNat]
      rw [if_neg (by omega), ih (n / 128) (by omega)]
      rfl

theorem groupValue_varint (n : Nat) : groupValue (varint n) = n := by
  induction n using Nat.strongRecOn with
  | ind n ih =>
    by_cases h : n < 128
    · rw [varint_small h]
      simp only [groupValue, BitVec.toNat_ofNat]; omega
    · rw [varint_big (by omega)]
      simp only [groupValue, BitVec.toNat_ofNat]
      rw [ih (n / 128) (by omega)]; omega

theorem parseVarints_nil : parseVarints [] = some [] := by rw [parseVarints]; rfl

theorem parseVarints_some {bs g : List Byte} (h : firstGroup bs = some g) (hg : GroupOk g) :
    parseVarints bs = (parseVarints (bs.drop g.length)).map (groupValue g :: ·) := by
  rw [parseVarints, if_neg (by rintro rfl; simp [firstGroup] at h)]
  split
  · rename_i h'; rw [h'] at h; cases h
  · rename_i g' h'
    rw [h'] at h; cases h
    rw [if_pos hg]

theorem parseVarints_none {bs : List Byte} (hn : bs ≠ []) (h : ∀ g, firstGroup bs = some g → ¬ GroupOk g) :
    parseVarints bs = none := by
  rw [parseVarints, if_neg hn]
  split
  · rfl
  · rename_i g' h'
    rw [if_neg (h _ h')]

theorem parseVarints_varintsOf (xs : List U32) : parseVarints (varintsOf xs) = some (xs.map BitVec.toNat) := by
  induction xs with
  | nil => exact parseVarints_nil
  | cons x xs ih =>
    have e : varintsOf (x :: xs) = varint x.toNat ++ varintsOf xs := rfl
    have hx := x.isLt
    rw [e, parseVarints_some (firstGroup_varint _ _) ⟨?_, ?_⟩, List.drop_left, ih, groupValue_varint]
    · rfl
    · have := varint_length_le (k := 9) (n := x.toNat) (by omega)
      omega
    · rw [groupValue_varint]; omega

theorem firstGroup_append {p bs g : List Byte} (h : firstGroup bs = some g) (hp : ∀ b ∈ p, 128 ≤ b.toNat) :
    firstGroup (p ++ bs) = some (p ++ g) := by
  induction p with
  | nil => exact h
  | cons b p ih =>
    have hb := hp b (by simp)
    simp only [List.cons_append, firstGroup]
    rw [if_neg (by omega), ih fun b hb => hp b (by simp [hb])]; rfl

theorem firstGroup_append_none {p : List Byte} (hp : ∀ b ∈ p, 128 ≤ b.toNat) : firstGroup p = none := by
  induction p with
  | nil => rfl
  | cons b p ih =>
    have hb := hp b (by simp)
    simp only [firstGroup]
    rw [if_neg (by omega), ih fun b hb => hp b (by simp [hb])]; rfl

theorem groupValue_append (p g : List Byte) :
    groupValue (p ++ g) = groupValue p + 128 ^ p.length * groupValue g := by
  induction p with
  | nil => simp [groupValue]
  | cons b p ih =>
    simp only [List.cons_append, groupValue, ih, List.length_cons, Nat.pow_succ]
    rw [Nat.mul_add, Nat.mul_comm (128 ^ p.length) 128, Nat.mul_assoc]; omega

theorem groupValue_lt (p : List Byte) : groupValue p < 128 ^ p.length := by
  induction p with
  | nil => simp [groupValue]
  | cons b p ih =>
    simp only [groupValue, List.length_cons, Nat.pow_succ]
    omega

/-- A group is a prefix. -/
theorem firstGroup_prefix {bs g : List Byte} (h : firstGroup bs = some g) : ∃ t, bs = g ++ t := by
  induction bs generalizing g with
  | nil => simp [firstGroup] at h
  | cons b bs ih =>
    unfold firstGroup at h
    split at h
    · cases h; exact ⟨bs, rfl⟩
    · cases hf : firstGroup bs with
      | none => simp [hf] at h
      | some g' =>
        simp [hf] at h; subst h
        obtain ⟨t, ht⟩ := ih hf
        exact ⟨t, by rw [ht]; rfl⟩

/-! ## `binary.PutUvarint` -/

theorem or_high (x : U64) : ((x.setWidth 8 : Byte) ||| 0x80) = BitVec.ofNat 8 (x.toNat % 128 + 128) := by
  have h : ∀ y : Byte, y ||| 0x80 = BitVec.ofNat 8 (y.toNat % 128 + 128) := by decide +kernel
  rw [h, BitVec.toNat_setWidth]
  congr 2
  omega

/-- `binary.PutUvarint`: writes the varint if there is room, otherwise panics. -/
theorem putUvarint_spec {buf : Bytes} {x : U64} {m : Mem} {E : Panic → Mem → Prop} {R : Ptr → Prop}
    (hE : ∀ m', buf.len < (varint x.toNat).length → E .index m') :
    wp ⟨R, fun q => q.blk = buf.blk ∧ buf.off ≤ q.off ∧ q.off < buf.off + buf.len, E⟩ (putUvarint buf x) m
      (fun r m' => (varint x.toNat).length ≤ buf.len ∧ r = ((varint x.toNat).length : Nat) ∧
        seq m' buf.blk buf.off (varint x.toNat).length = varint x.toNat ∧
        ∀ q, ¬ (q.blk = buf.blk ∧ buf.off ≤ q.off ∧ q.off < buf.off + (varint x.toNat).length) →
          m' q = m q) := by
  unfold putUvarint
  simp only [Prog.bind_eq, Prog.pure_eq]
  rw [wp_bind]
  refine wp_loop
    (fun (s : U64 × Int) (m' : Mem) => ∃ i : Nat, s.2 = (i : Int) ∧ i ≤ 9 ∧ i ≤ buf.len ∧ s.1.toNat < 2 ^ (64 - 7 * i) ∧
      seq m' buf.blk buf.off i ++ varint s.1.toNat = varint x.toNat ∧
      ∀ q, ¬ (q.blk = buf.blk ∧ buf.off ≤ q.off ∧ q.off < buf.off + i) → m' q = m q)
    (fun s : U64 × Int => 9 - s.2.toNat) ?_ ?_ ?_ ⟨0, rfl, by omega, by omega, by simpa using x.isLt, rfl, fun _ _ => rfl⟩
    (by omega)
  · rintro ⟨y, j⟩ m' ⟨i, hi, h9, hlen, hlt, hseq, hfr⟩ hc
    simp only at hi hlt hseq; subst hi
    replace hc : 128 ≤ y.toNat := by simpa using hc
    have h8 : i ≤ 8 := by
      have : ¬ i = 9 := by
        rintro rfl
        simp at hlt; omega
      omega
    rw [varint_big hc] at hseq
    rw [wp_bind]
    refine wp_setB (fun a ha hal => ⟨⟨rfl, by simp only; omega, by simp only; omega⟩, ?_⟩) fun h => hE _ ?_
    · have : a = i := by omega
      subst this
      refine ⟨⟨a + 1, by simp, by omega, by omega, ?_, ?_, ?_⟩, by simp only; omega⟩
      · simp only [BitVec.toNat_ushiftRight, Nat.shiftRight_eq_div_pow]
        rw [Nat.div_lt_iff_lt_mul (by omega), ← Nat.pow_add]
        refine Nat.lt_of_lt_of_le hlt (Nat.pow_le_pow_right (by omega) (by omega))
      · rw [seq_succ, List.append_assoc, ← hseq]
        congr 1
        · refine seq_congr fun k hk => ?_
          simp only [Mem.set, Ptr.mk.injEq, true_and]; rw [if_neg (by omega)]
        · simp only [List.cons_append, List.nil_append, Mem.set, if_true, or_high, BitVec.toNat_ushiftRight,
            Nat.shiftRight_eq_div_pow]
      · intro q hq
        rw [← hfr q (fun h => hq ⟨h.1, h.2.1, by omega⟩)]
        unfold Mem.set; rw [if_neg]
        rintro rfl
        exact hq ⟨rfl, by simp only; omega, by simp only; omega⟩
    · have := congrArg List.length hseq
      simp only [List.length_append, List.length_cons, seq_length] at this
      omega
  · rintro ⟨y, j⟩ m' ⟨i, hi, h9, hlen, hlt, hseq, hfr⟩ hc
    simp only at hi hlt; subst hi
    replace hc : 128 ≤ y.toNat := by simpa using hc
    have h8 : ¬ i = 9 := by
      rintro rfl
      simp at hlt; omega
    simp only; omega
  · rintro ⟨y, j⟩ m' ⟨i, hi, h9, hlen, hlt, hseq, hfr⟩ hc
    simp only at hi hlt hseq; subst hi
    replace hc : y.toNat < 128 := by simpa using hc
    rw [varint_small hc] at hseq
    have hl := congrArg List.length hseq
    simp only [List.length_append, List.length_cons, List.length_nil, seq_length] at hl
    rw [wp_bind]
    refine wp_setB (fun a ha hal => ⟨⟨rfl, by simp only; omega, by simp only; omega⟩, ?_⟩) fun h => hE _ ?_
    · have : a = i := by omega
      subst this
      refine ⟨by omega, by omega, ?_, ?_⟩
      · rw [← hl, seq_succ, ← hseq]
        congr 1
        · refine seq_congr fun k hk => ?_
          simp only [Mem.set, Ptr.mk.injEq, true_and]; rw [if_neg (by omega)]
        · simp only [Mem.set, if_true]
          congr 1
      · intro q hq
        rw [← hfr q (fun h => hq ⟨h.1, h.2.1, by omega⟩)]
        unfold Mem.set; rw [if_neg]
        rintro rfl
        exact hq ⟨rfl, by simp only; omega, by simp only; omega⟩
    · omega

/-! ## `binary.Uvarint` -/

theorem and7f (b : Byte) : (b &&& 0x7f).toNat = b.toNat % 128 := by
  revert b; decide +kernel

theorem or_shift {x : U64} {b i : Nat} (hx : x.toNat < 2 ^ (7 * i)) (hb : 2 ^ (7 * i) * b + x.toNat < 2 ^ 64)
    {y : U64} (hy : y.toNat = b) : (x ||| y <<< (7 * i)).toNat = x.toNat + 128 ^ i * b := by
  have h128 : (128 : Nat) ^ i = 2 ^ (7 * i) := by rw [Nat.pow_mul]
  rw [BitVec.toNat_or, BitVec.toNat_shiftLeft, Nat.shiftLeft_eq, hy, h128]
  have e : b * 2 ^ (7 * i) % 2 ^ 64 = 2 ^ (7 * i) * b := by
    rw [Nat.mul_comm]; exact Nat.mod_eq_of_lt (by omega)
  rw [e, Nat.or_comm, ← Nat.two_pow_add_eq_or_of_lt hx]
  omega

theorem uvarintLoop_spec {buf : Bytes} {m : Mem} (r i : Nat) (x : U64) (h : i + r = buf.len) (h10 : i ≤ 10)
    (hp : ∀ b ∈ seq m buf.blk buf.off i, 128 ≤ b.toNat)
    (hx : i ≤ 9 → x.toNat = groupValue (seq m buf.blk buf.off i)) :
    wp ⟨inSlice buf, fun _ => False, fun _ _ => False⟩ (uvarintLoop buf r i x (7 * i)) m
      (fun v m' => m' = m ∧
        ((∃ g, firstGroup (bytesOf m buf) = some g ∧ GroupOk g ∧ v.1.toNat = groupValue g ∧
            v.2 = (g.length : Nat)) ∨
          ((∀ g, firstGroup (bytesOf m buf) = some g → ¬ GroupOk g) ∧ v.1 = 0 ∧ -11 ≤ v.2 ∧ v.2 ≤ 0))) := by
  induction r generalizing i x with
  | zero =>
    refine ⟨rfl, .inr ⟨fun g hg => ?_, rfl, by simp, by simp⟩⟩
    rw [bytesOf_seq, ← h, Nat.add_zero, firstGroup_append_none hp] at hg
    cases hg
  | succ r ih =>
    have hs : bytesOf m buf = seq m buf.blk buf.off i ++ (m ⟨buf.blk, buf.off + i⟩ ::
        seq m buf.blk (buf.off + i + 1) r) := by
      rw [bytesOf_seq, ← h, seq_add, seq_cons]
    unfold uvarintLoop
    simp only [Prog.bind_eq, Prog.pure_eq]
    rw [wp_bind]
    refine wp_getB_ok i rfl (by omega) ⟨rfl, by simp only; omega, by simp only; omega⟩ ?_
    by_cases hi : i = 10
    · rw [if_pos hi]
      refine ⟨rfl, .inr ⟨fun g hg hok => ?_, rfl, by omega, by omega⟩⟩
      cases hf : firstGroup (m ⟨buf.blk, buf.off + i⟩ :: seq m buf.blk (buf.off + i + 1) r) with
      | some g' =>
        rw [hs, firstGroup_append hf hp] at hg
        cases hg
        have h1 := hok.1
        have h2 := firstGroup_length hf
        rw [List.length_append, seq_length] at h1
        omega
      | none =>
        rw [hs] at hg
        have : ∀ {p bs : List Byte}, firstGroup bs = none → (∀ b ∈ p, 128 ≤ b.toNat) →
            firstGroup (p ++ bs) = none := by
          intro p bs hn hp
          induction p with
          | nil => exact hn
          | cons b p ih =>
            have hb := hp b (by simp)
            simp only [List.cons_append, firstGroup]
            rw [if_neg (by omega), ih fun b hb => hp b (by simp [hb])]; rfl
        rw [this hf hp] at hg
        cases hg
    · rw [if_neg hi]
      have hx := hx (by omega)
      have hlt : x.toNat < 2 ^ (7 * i) := by
        have := groupValue_lt (seq m buf.blk buf.off i)
        rw [seq_length, show (128 : Nat) ^ i = 2 ^ (7 * i) by rw [Nat.pow_mul]] at this
        omega
      by_cases hb : (m ⟨buf.blk, buf.off + i⟩).toNat < 128
      · rw [if_pos hb]
        have hg : firstGroup (bytesOf m buf) = some (seq m buf.blk buf.off i ++ [m ⟨buf.blk, buf.off + i⟩]) := by
          rw [hs]; refine firstGroup_append ?_ hp
          simp only [firstGroup]; rw [if_pos hb]
        have hv : groupValue (seq m buf.blk buf.off i ++ [m ⟨buf.blk, buf.off + i⟩]) =
            x.toNat + 128 ^ i * (m ⟨buf.blk, buf.off + i⟩).toNat := by
          rw [groupValue_append, seq_length, hx]
          simp only [groupValue]
          rw [Nat.mod_eq_of_lt hb]; rfl
        by_cases h9 : i = 9 ∧ 1 < (m ⟨buf.blk, buf.off + i⟩).toNat
        · rw [if_pos h9]
          refine ⟨rfl, .inr ⟨fun g hg' hok => ?_, rfl, by omega, by omega⟩⟩
          rw [hg] at hg'; cases hg'
          have := hok.2
          rw [hv, h9.1] at this
          have := h9.2
          rw [h9.1] at this
          omega
        · rw [if_neg h9]
          have hbd : 2 ^ (7 * i) * (m ⟨buf.blk, buf.off + i⟩).toNat + x.toNat < 2 ^ 64 := by
            by_cases hi9 : i = 9
            · subst hi9
              have : (m ⟨buf.blk, buf.off + 9⟩).toNat ≤ 1 := by
                have : ¬ 1 < (m ⟨buf.blk, buf.off + 9⟩).toNat := fun h => h9 ⟨rfl, h⟩
                omega
              omega
            · have h1 : 2 ^ (7 * i) * ((m ⟨buf.blk, buf.off + i⟩).toNat + 1) ≤ 2 ^ (7 * i) * 128 :=
                Nat.mul_le_mul_left _ (by omega)
              have h2 : 2 ^ (7 * i) * 128 ≤ 2 ^ 63 := by
                rw [show (128 : Nat) = 2 ^ 7 by decide, ← Nat.pow_add]
                exact Nat.pow_le_pow_right (by omega) (by omega)
              rw [Nat.mul_add, Nat.mul_one] at h1
              omega
          have hval := or_shift hlt hbd (y := (m ⟨buf.blk, buf.off + i⟩).setWidth 64) (by
            rw [BitVec.toNat_setWidth]; have := (m ⟨buf.blk, buf.off + i⟩).isLt
            exact Nat.mod_eq_of_lt (by omega))
          refine ⟨rfl, .inl ⟨_, hg, ⟨by rw [List.length_append, seq_length]; simp; omega, ?_⟩, ?_, ?_⟩⟩
          · rw [hv, Nat.pow_mul] at *; omega
          · rw [hv]; exact hval
          · rw [List.length_append, seq_length]; simp
      · rw [if_neg hb]
        refine ih (i + 1) _ (by omega) (by omega) ?_ ?_
        · rw [seq_succ]
          intro b hb'
          rcases List.mem_append.1 hb' with hb' | hb'
          · exact hp b hb'
          · simp only [List.mem_singleton] at hb'; subst hb'; omega
        · intro hi9
          rw [seq_succ, groupValue_append, seq_length, ← hx]
          simp only [groupValue, Nat.mul_zero, Nat.add_zero]
          refine or_shift hlt ?_ ?_
          · have h1 : 2 ^ (7 * i) * ((m ⟨buf.blk, buf.off + i⟩).toNat % 128 + 1) ≤ 2 ^ (7 * i) * 128 :=
              Nat.mul_le_mul_left _ (by omega)
            have h2 : 2 ^ (7 * i) * 128 ≤ 2 ^ 63 := by
              rw [show (128 : Nat) = 2 ^ 7 by decide, ← Nat.pow_add]
              exact Nat.pow_le_pow_right (by omega) (by omega)
            rw [Nat.mul_add, Nat.mul_one] at h1
            omega
          · rw [BitVec.toNat_setWidth, and7f]; exact Nat.mod_eq_of_lt (by omega)

/-- `binary.Uvarint`. -/
theorem uvarint_spec (buf : Bytes) (m : Mem) :
    wp ⟨inSlice buf, fun _ => False, fun _ _ => False⟩ (uvarint buf) m
      (fun v m' => m' = m ∧
        ((∃ g, firstGroup (bytesOf m buf) = some g ∧ GroupOk g ∧ v.1.toNat = groupValue g ∧
            v.2 = (g.length : Nat)) ∨
          ((∀ g, firstGroup (bytesOf m buf) = some g → ¬ GroupOk g) ∧ v.1 = 0 ∧ -11 ≤ v.2 ∧ v.2 ≤ 0))) :=
  uvarintLoop_spec buf.len 0 0 (by omega) (by omega) (by simp [seq_zero]) (fun _ => rfl)

end SVB
