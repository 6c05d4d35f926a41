import Verif.SpecVByte
import Verif.Props.Util

/-! # C80: the README's account of VByte, and package `util` -/

set_option autoImplicit false

namespace SVB.Props
open Spec

private theorem msb_iff (b : Byte) : b.msb = decide (128 ≤ b.toNat) := by
  revert b; decide +kernel

private theorem or_step (w a i : Nat) (b : Byte) (ha : a < 128 ^ i) :
    (BitVec.ofNat w a ||| ((b &&& 0x7f).setWidth w <<< (7 * i))) = BitVec.ofNat w (a + 128 ^ i * (b.toNat % 128)) := by
  have h128 : (128 : Nat) ^ i = 2 ^ (7 * i) := by rw [Nat.pow_mul]
  rw [h128] at ha ⊢
  have h1 : a + 2 ^ (7 * i) * (b.toNat % 128) = (b.toNat % 128) <<< (7 * i) ||| a := by
    rw [← Nat.shiftLeft_add_eq_or_of_lt ha, Nat.shiftLeft_eq, Nat.mul_comm, Nat.add_comm]
  have h2 : ((b &&& 0x7f).setWidth w <<< (7 * i)) = BitVec.ofNat w ((b.toNat % 128) <<< (7 * i)) := by
    apply BitVec.eq_of_toNat_eq
    rw [BitVec.toNat_shiftLeft, BitVec.toNat_setWidth, and7f, BitVec.toNat_ofNat, Nat.shiftLeft_eq, Nat.shiftLeft_eq,
      Nat.mod_mul_mod]
  rw [h1, h2]
  apply BitVec.eq_of_toNat_eq
  simp only [BitVec.toNat_or, BitVec.toNat_ofNat, Nat.or_mod_two_pow]
  exact Nat.or_comm _ _

private theorem orBits_group (w : Nat) (bs : List Byte) : ∀ (i a : Nat) (g : List Byte), a < 128 ^ i →
    firstGroup bs = some g →
    orBits w bs i (BitVec.ofNat w a) = (BitVec.ofNat w (a + 128 ^ i * groupValue g), i + g.length) := by
  induction bs with
  | nil => intro i a g _ h; simp [firstGroup] at h
  | cons b bs ih =>
    intro i a g ha h
    unfold firstGroup at h
    unfold orBits
    simp only [msb_iff]
    rw [or_step w a i b ha]
    split at h
    · rename_i hb
      cases h
      rw [if_neg (by simpa using hb)]
      simp [groupValue]
    · rename_i hb
      rw [if_pos (by simpa using hb)]
      cases hf : firstGroup bs with
      | none => simp [hf] at h
      | some g' =>
        rw [hf] at h
        cases h
        have hlt : a + 128 ^ i * (b.toNat % 128) < 128 ^ (i + 1) := by
          have h1 : 128 ^ i * (b.toNat % 128) ≤ 128 ^ i * 127 := Nat.mul_le_mul_left _ (by omega)
          rw [Nat.pow_succ]
          generalize 128 ^ i * (b.toNat % 128) = z at h1 ⊢
          generalize 128 ^ i = y at h1 ha ⊢
          omega
        rw [ih (i + 1) _ g' hlt hf]
        simp only [groupValue, List.length_cons]
        refine Prod.ext ?_ (by simp only; omega)
        simp only
        rw [Nat.pow_succ, Nat.mul_add, Nat.mul_assoc, Nat.add_assoc]

private theorem vbyte_iff (g : List Byte) : VByte g ↔ firstGroup g = some g := by
  unfold VByte
  induction g with
  | nil => simp [firstGroup]
  | cons b g ih =>
    unfold firstGroup
    cases g with
    | nil =>
      simp only [firstGroup, msb_iff]
      split
      · simp; omega
      · simp; omega
    | cons c g =>
      constructor
      · rintro ⟨-, h⟩
        have h0 := h 0 (by simp)
        rw [msb_iff] at h0
        simp at h0
        rw [if_neg (by omega), ih.1 ⟨by simp, fun j hj => ?_⟩]
        · rfl
        · have := h (j + 1) (by simpa using hj)
          simpa using this
      · intro h
        split at h
        · simp at h
        · rename_i hb
          have h' : firstGroup (c :: g) = some (c :: g) := by
            cases hf : firstGroup (c :: g) with
            | none => rw [hf] at h; simp at h
            | some g' => rw [hf] at h; simp at h; rw [h]
          obtain ⟨-, h2⟩ := ih.2 h'
          refine ⟨by simp, fun j hj => ?_⟩
          cases j with
          | zero => rw [msb_iff]; simp; omega
          | succ j =>
            have := h2 j (by simpa using hj)
            simpa using this

private theorem varint_len_iff (n k : Nat) : (varint n).length ≤ k + 1 ↔ n < 2 ^ (7 * (k + 1)) := by
  have h128 : (128 : Nat) ^ (k + 1) = 2 ^ (7 * (k + 1)) := by rw [Nat.pow_mul]
  rw [← h128]
  refine ⟨fun h => ?_, varint_length_le⟩
  have h1 := groupValue_lt (varint n)
  rw [groupValue_varint] at h1
  exact Nat.lt_of_lt_of_le h1 (Nat.pow_le_pow_right (by omega) h)

private theorem group_min (n : Nat) : ∀ g : List Byte, firstGroup g = some g → groupValue g = n →
    (varint n).length ≤ g.length ∧ (g.length = (varint n).length → g = varint n) := by
  induction n using Nat.strongRecOn with
  | ind n ih =>
    intro g hg hn
    cases g with
    | nil => simp [firstGroup] at hg
    | cons b g =>
      unfold firstGroup at hg
      split at hg
      · rename_i hb
        simp at hg
        subst hg
        simp only [groupValue] at hn
        rw [varint_small (by omega)]
        simp
        apply BitVec.eq_of_toNat_eq
        rw [BitVec.toNat_ofNat]
        omega
      · rename_i hb
        have hg' : firstGroup g = some g := by
          cases hf : firstGroup g with
          | none => rw [hf] at hg; simp at hg
          | some g' => rw [hf] at hg; simp at hg; rw [hg]
        have hpos := firstGroup_length hg'
        by_cases hs : n < 128
        · rw [varint_small hs]
          simp
          intro h
          rw [h] at hpos; simp at hpos
        · rw [varint_big (by omega)]
          simp only [groupValue] at hn
          obtain ⟨h1, h2⟩ := ih (n / 128) (by omega) g hg' (by omega)
          refine ⟨by simpa using h1, fun h => ?_⟩
          rw [h2 (by simpa using h)]
          congr 1
          apply BitVec.eq_of_toNat_eq
          rw [BitVec.toNat_ofNat]
          have := b.isLt
          omega

private theorem getElem_varint (n : Nat) : ∀ (j : Nat) (h : j < (varint n).length),
    (varint n)[j].toNat % 128 = n / 2 ^ (7 * j) % 128 := by
  induction n using Nat.strongRecOn with
  | ind n ih =>
    intro j h
    by_cases hs : n < 128
    · have e := varint_small hs
      have hj : j = 0 := by rw [e] at h; simp at h; exact h
      subst hj
      simp only [e, List.getElem_cons_zero, BitVec.toNat_ofNat, Nat.mul_zero, Nat.pow_zero, Nat.div_one]
      omega
    · have e := varint_big (n := n) (by omega)
      cases j with
      | zero =>
        simp only [e, List.getElem_cons_zero, BitVec.toNat_ofNat, Nat.mul_zero, Nat.pow_zero, Nat.div_one]
        omega
      | succ j =>
        simp only [e, List.getElem_cons_succ]
        have h' : j < (varint (n / 128)).length := by rw [e] at h; simpa using h
        rw [ih (n / 128) (by omega) j h', Nat.div_div_eq_div_mul]
        congr 2
        rw [Nat.mul_add, Nat.pow_add, Nat.mul_comm]

/-! ## The format -/

/-- C80: the bytes of a number: seven bits in each, the lowest first, and the continuation bit on in all but the
last. -/
theorem C80_format (n : Nat) : VByte (varint n) ∧
    ∀ j (h : j < (varint n).length), (varint n)[j].toNat % 128 = n / 2 ^ (7 * j) % 128 := by
  refine ⟨(vbyte_iff _).2 ?_, getElem_varint n⟩
  have := firstGroup_varint n []
  simpa using this

/-- C80: as many bytes as there are groups of seven bits up to the highest bit. -/
theorem C80_length (n k : Nat) : (varint n).length ≤ k + 1 ↔ n < 2 ^ (7 * (k + 1)) := varint_len_iff n k

/-- C80: so at most five bytes for 32 bits and ten for 64. -/
theorem C80_most (x : U32) (y : U64) : (varint x.toNat).length ≤ 5 ∧ (varint y.toNat).length ≤ 10 :=
  ⟨(varint_len_iff _ 4).2 (by have := x.isLt; omega), (varint_len_iff _ 9).2 (by have := y.isLt; omega)⟩

/-- C80: "this works the same for 64-bit numbers" — and for any width: the described decoder gives back the number
and stops behind its last byte, whatever follows. -/
theorem C80_decode (w : Nat) (x : BitVec w) (rest : List Byte) :
    decodeVByte w (varint x.toNat ++ rest) = (x, (varint x.toNat).length) := by
  unfold decodeVByte
  have := orBits_group w _ 0 0 _ (by simp) (firstGroup_varint x.toNat rest)
  rw [groupValue_varint] at this
  simpa using this

/-- C80: no number has a shorter form, and no other of the same length; so `varint` is the only one that is not
longer than it need be. -/
theorem C80_shortest (w : Nat) (x : BitVec w) (g : List Byte) (hg : VByte g) (hw : g.length * 7 ≤ w)
    (h : (decodeVByte w g).1 = x) : (varint x.toNat).length ≤ g.length ∧
      (g.length = (varint x.toNat).length → g = varint x.toNat) := by
  have hf := (vbyte_iff g).1 hg
  refine group_min x.toNat g hf ?_
  unfold decodeVByte at h
  have := orBits_group w g 0 0 g (by simp) hf
  simp only [Nat.pow_zero, Nat.one_mul, Nat.zero_add] at this
  rw [show (0 : BitVec w) = BitVec.ofNat w 0 from rfl, this] at h
  have h1 := groupValue_lt g
  rw [show (128 : Nat) = 2 ^ 7 by decide, ← Nat.pow_mul] at h1
  rw [← h, BitVec.toNat_ofNat]
  exact (Nat.mod_eq_of_lt (Nat.lt_of_lt_of_le h1 (Nat.pow_le_pow_right (by omega) (by omega)))).symm

/-! ## Sequences -/

private theorem group_inj {a b s t : List Byte} (ha : firstGroup a = some a) (hb : firstGroup b = some b)
    (h : a ++ s <+: b ++ t) : a = b ∧ s <+: t := by
  induction a generalizing b with
  | nil => simp [firstGroup] at ha
  | cons x a ih =>
    cases b with
    | nil => simp [firstGroup] at hb
    | cons y b =>
      rw [List.cons_append, List.cons_append, List.cons_prefix_cons] at h
      obtain ⟨rfl, h⟩ := h
      unfold firstGroup at ha hb
      by_cases hx : x.toNat < 128
      · rw [if_pos hx] at ha hb
        simp at ha hb
        subst ha hb
        exact ⟨rfl, by simpa using h⟩
      · rw [if_neg hx] at ha hb
        have e : ∀ c : List Byte, (firstGroup c).map (x :: ·) = some (x :: c) → firstGroup c = some c := by
          intro c hc
          cases hf : firstGroup c with
          | none => rw [hf] at hc; simp at hc
          | some g' => rw [hf] at hc; simp at hc; rw [hc]
        obtain ⟨rfl, h2⟩ := ih (e _ ha) (e _ hb) h
        exact ⟨rfl, h2⟩

private theorem self_group (n : Nat) : firstGroup (varint n) = some (varint n) := by
  have := firstGroup_varint n []
  simpa using this

/-- C80: the varints of one sequence begin those of another exactly if the sequence begins the other: unlike
streams (C24) they need no count, and appending numbers appends bytes. -/
theorem C80_prefix (xs ys : List U32) : varintsOf xs <+: varintsOf ys ↔ xs <+: ys := by
  induction xs generalizing ys with
  | nil => simp [varintsOf]
  | cons x xs ih =>
    have ex : varintsOf (x :: xs) = varint x.toNat ++ varintsOf xs := rfl
    cases ys with
    | nil =>
      rw [ex]
      have := varint_length_pos x.toNat
      constructor
      · intro h
        have h2 := h.length_le
        have e0 : (varintsOf []).length = 0 := rfl
        rw [e0, List.length_append] at h2
        omega
      · intro h; simp at h
    | cons y ys =>
      have ey : varintsOf (y :: ys) = varint y.toNat ++ varintsOf ys := rfl
      rw [ex, ey, List.cons_prefix_cons, ← ih]
      constructor
      · intro h
        obtain ⟨h1, h2⟩ := group_inj (self_group _) (self_group _) h
        refine ⟨?_, h2⟩
        apply BitVec.eq_of_toNat_eq
        rw [← groupValue_varint x.toNat, h1, groupValue_varint]
      · rintro ⟨rfl, t, h⟩
        exact ⟨t, by rw [List.append_assoc, h]⟩

/-- C80: different sequences have different varints. -/
theorem C80_injective (xs ys : List U32) (h : varintsOf xs = varintsOf ys) : xs = ys := by
  have h1 := (C80_prefix xs ys).1 (by rw [h]; exact List.prefix_refl _)
  have h2 := (C80_prefix ys xs).1 (by rw [h]; exact List.prefix_refl _)
  exact h1.eq_of_length (Nat.le_antisymm h1.length_le h2.length_le)

/-! ## The code -/

/-- C80: `binary.PutUvarint` writes the bytes of any 64-bit number, if there is room, and panics otherwise. -/
theorem C80_putUvarint (buf : Bytes) (x : U64) (m : Mem) :
    ((varint x.toNat).length ≤ buf.len →
      ∃ m', run (putUvarint buf x) m = (.ok ((varint x.toNat).length : Nat), m') ∧
        bytesOf m' ⟨buf.blk, buf.off, (varint x.toNat).length, buf.cap⟩ = varint x.toNat ∧
        ∀ q, ¬ inPrefix buf (varint x.toNat).length q → m' q = m q) ∧
    (buf.len < (varint x.toNat).length → ∃ m', run (putUvarint buf x) m = (.panic .index, m')) := by
  obtain ⟨h1, -, -⟩ := run_of_wp' (putUvarint_spec (buf := buf) (x := x) (m := m)
    (E := fun k _ => k = .index ∧ buf.len < (varint x.toNat).length) (R := fun _ => False)
    (fun _ h => ⟨rfl, h⟩))
  rcases h1 with ⟨r, m', hr, h2, rfl, h4, h5⟩ | ⟨k, m', hr, rfl, hk⟩
  · exact ⟨fun _ => ⟨m', hr, h4, fun q hq => h5 q fun h => hq ⟨h.1, h.2.1, by omega⟩⟩, fun h => by omega⟩
  · exact ⟨fun h => by omega, fun _ => ⟨m', hr⟩⟩

/-- C80: `binary.Uvarint` on bytes that begin with a number in VByte, of at most nine bytes, is the described
decoder. -/
theorem C80_uvarint (buf : Bytes) (m : Mem) (g rest : List Byte) (hg : VByte g) (h9 : g.length ≤ 9)
    (hb : bytesOf m buf = g ++ rest) :
    run (uvarint buf) m = (.ok ((decodeVByte 64 g).1, ((decodeVByte 64 g).2 : Int)), m) := by
  have hf := (vbyte_iff g).1 hg
  have hfb : firstGroup (bytesOf m buf) = some g := by
    rw [hb]
    clear hb h9 hg
    induction g with
    | nil => simp [firstGroup] at hf
    | cons b g ih =>
      rw [List.cons_append]
      unfold firstGroup at hf ⊢
      split at hf
      · rename_i h; rw [if_pos h]; exact hf
      · rename_i h
        rw [if_neg h]
        cases hg' : firstGroup g with
        | none => rw [hg'] at hf; simp at hf
        | some g' =>
          rw [hg'] at hf
          simp at hf
          subst hf
          rw [ih hg']
          rfl
  have hd := orBits_group 64 g 0 0 g (by simp) hf
  simp only [Nat.pow_zero, Nat.one_mul, Nat.zero_add] at hd
  have h1 := groupValue_lt g
  have hok : GroupOk g := by
    refine ⟨by omega, Nat.lt_of_lt_of_le h1 (Nat.le_trans (Nat.pow_le_pow_right (by omega) h9) (by decide))⟩
  obtain ⟨h1, -, -⟩ := run_of_wp' (uvarint_spec buf m)
  rcases h1 with ⟨r, m', hr, rfl, ⟨g', e1, e2, e3, e4⟩ | ⟨e1, -⟩⟩ | ⟨k, m', hr, hk⟩
  · rw [hfb] at e1
    cases e1
    rw [hr]
    unfold decodeVByte
    rw [show (0 : BitVec 64) = BitVec.ofNat 64 0 from rfl, hd]
    congr 2
    refine Prod.ext ?_ e4
    apply BitVec.eq_of_toNat_eq
    rw [e3, BitVec.toNat_ofNat, Nat.mod_eq_of_lt hok.2]
  · exact absurd hok (e1 g hfb)
  · exact hk.elim

/-- C80: and it gives back every 64-bit number, also of ten bytes. -/
theorem C80_uvarint_all (buf : Bytes) (m : Mem) (x : U64) (rest : List Byte)
    (hb : bytesOf m buf = varint x.toNat ++ rest) :
    run (uvarint buf) m = (.ok (x, ((varint x.toNat).length : Int)), m) := by
  have hfb := firstGroup_varint x.toNat rest
  rw [← hb] at hfb
  have hok : GroupOk (varint x.toNat) := ⟨(C80_most 0 x).2, by rw [groupValue_varint]; exact x.isLt⟩
  obtain ⟨h1, -, -⟩ := run_of_wp' (uvarint_spec buf m)
  rcases h1 with ⟨r, m', hr, rfl, ⟨g', e1, e2, e3, e4⟩ | ⟨e1, -⟩⟩ | ⟨k, m', hr, hk⟩
  · rw [hfb] at e1
    cases e1
    rw [groupValue_varint] at e3
    rw [hr]
    congr 2
    exact Prod.ext (BitVec.eq_of_toNat_eq e3) e4
  · exact absurd hok (e1 _ hfb)
  · exact hk.elim

private theorem parse_groups (gs : List (List Byte)) (h : ∀ g ∈ gs, VByte g ∧ g.length ≤ 9) :
    parseVarints gs.flatten = some (gs.map groupValue) := by
  induction gs with
  | nil => exact parseVarints_nil
  | cons g gs ih =>
    obtain ⟨hg, h9⟩ := h g (by simp)
    have hf := (vbyte_iff g).1 hg
    have hfb : firstGroup (g ++ gs.flatten) = some g := by
      clear h ih hg h9
      induction g with
      | nil => simp [firstGroup] at hf
      | cons b g ih =>
        rw [List.cons_append]
        unfold firstGroup at hf ⊢
        split at hf
        · rename_i h; rw [if_pos h]; exact hf
        · rename_i h
          rw [if_neg h]
          cases hg' : firstGroup g with
          | none => rw [hg'] at hf; simp at hf
          | some g' =>
            rw [hg'] at hf
            simp at hf
            subst hf
            rw [ih hg']
            rfl
    have h1 := groupValue_lt g
    have hok : GroupOk g := by
      refine ⟨by omega, Nat.lt_of_lt_of_le h1 (Nat.le_trans (Nat.pow_le_pow_right (by omega) h9) (by decide))⟩
    rw [List.flatten_cons, parseVarints_some hfb hok, List.drop_left, ih fun g hg => h g (by simp [hg])]
    rfl

private theorem decode32 (g : List Byte) (hg : VByte g) : (decodeVByte 32 g).1 = BitVec.ofNat 32 (groupValue g) := by
  have hd := orBits_group 32 g 0 0 g (by simp) ((vbyte_iff g).1 hg)
  simp only [Nat.pow_zero, Nat.one_mul, Nat.zero_add] at hd
  unfold decodeVByte
  rw [show (0 : BitVec 32) = BitVec.ofNat 32 0 from rfl, hd]

/-- C80: `GetVarint` on numbers in VByte of at most nine bytes each (also ones longer than needed) stores for each
what the described decoder gives with a 32-bit integer. -/
theorem C80_getVarint {data : Bytes} {out : U32s} {m : Mem} (hd : Disjoint data out) (hlen : data.len < 2 ^ 62)
    (gs : List (List Byte)) (hg : ∀ g ∈ gs, VByte g ∧ g.length ≤ 9) (hb : bytesOf m data = gs.flatten)
    (hroom : gs.length ≤ out.len) :
    ∃ m', run (getVarint data out) m = (.ok data.len, m') ∧
      wordsN m' out gs.length = gs.map fun g => (decodeVByte 32 g).1 := by
  obtain ⟨m', h1, h2, -⟩ := (C33_getVarint_result hd hlen).1 _ (by rw [hb]; exact parse_groups gs hg)
    (by simpa using hroom)
  refine ⟨m', h1, ?_⟩
  rw [List.length_map] at h2
  rw [h2, List.map_map]
  exact List.map_congr_left fun g hgs => (decode32 g (hg g hgs).1).symm

/-- C80: `GetDeltaVarint` likewise stores the running sums. -/
theorem C80_getDeltaVarint {data : Bytes} {out : U32s} {m : Mem} (prev : U32) (hd : Disjoint data out)
    (hlen : data.len < 2 ^ 62) (gs : List (List Byte)) (hg : ∀ g ∈ gs, VByte g ∧ g.length ≤ 9)
    (hb : bytesOf m data = gs.flatten) (hroom : gs.length ≤ out.len) :
    ∃ m', run (getDeltaVarint data out prev) m = (.ok data.len, m') ∧
      wordsN m' out gs.length = undelta prev (gs.map fun g => (decodeVByte 32 g).1) := by
  obtain ⟨m', h1, h2, -⟩ := (C33_getDeltaVarint_result prev hd hlen).1 _ (by rw [hb]; exact parse_groups gs hg)
    (by simpa using hroom)
  refine ⟨m', h1, ?_⟩
  rw [List.length_map] at h2
  rw [h2, List.map_map]
  congr 1
  exact List.map_congr_left fun g hgs => (decode32 g (hg g hgs).1).symm

-- The README's 1234, and a 64-bit number of ten bytes.
example : varint 1234 = [0b11010010, 0b00001001] ∧ decodeVByte 32 [0b11010010, 0b00001001, 7, 8] = (1234, 2) := by
  decide +kernel
example : varint (2 ^ 64 - 1) = List.replicate 9 0xFF ++ [1] ∧
    decodeVByte 64 (List.replicate 9 0xFF ++ [1]) = (0xFFFFFFFFFFFFFFFF, 10) := by decide +kernel
-- A form that is longer than needed, and three numbers as `C80_getVarint` wants them.
example : VByte [0x85, 0x80, 0x00] ∧ (decodeVByte 32 [0x85, 0x80, 0x00]).1 = 5 := by
  refine ⟨⟨by simp, fun j h => ?_⟩, by decide +kernel⟩
  have : j = 0 ∨ j = 1 ∨ j = 2 := by simp at h; omega
  rcases this with rfl | rfl | rfl <;> decide +revert +kernel
example : wordsOf (run (getVarint ⟨.heap 1, 0, 6, 6⟩ ⟨.heap 0, 0, 3, 3⟩)
    (memWith [0, 0, 0] [0x85, 0x80, 0x00, 0x07, 0xD2, 0x09])).2 ⟨.heap 0, 0, 3, 3⟩ = [5, 7, 1234] := by decide +kernel

end SVB.Props
