import Verif.Spec

/-! # Base-128 variable-length integers, independent of the model of the code -/

set_option autoImplicit false

namespace SVB.Spec

/-- The varint of `n`: groups of seven bits, least significant first, every byte but the last with the high
bit set. -/
def varint (n : Nat) : List Byte :=
  if n < 128 then [BitVec.ofNat 8 n] else BitVec.ofNat 8 (n % 128 + 128) :: varint (n / 128)
termination_by n
decreasing_by omega

/-- The varints of a sequence of numbers. -/
def varintsOf (xs : List U32) : List Byte := xs.flatMap fun x => varint x.toNat

/-- The shortest non-empty prefix that ends in a byte below 128. -/
def firstGroup : List Byte → Option (List Byte)
  | [] => none
  | b :: bs => if b.toNat < 128 then some [b] else (firstGroup bs).map (b :: ·)

/-- The number a group stands for. -/
def groupValue : List Byte → Nat
  | [] => 0
  | b :: bs => b.toNat % 128 + 128 * groupValue bs

/-- A group that stands for a 64-bit number: at most ten bytes, value below 2^64.  (Zero groups at the end are
allowed: 0x80 0x00 is a varint of 0.) -/
def GroupOk (g : List Byte) : Prop := g.length ≤ 10 ∧ groupValue g < 2 ^ 64

instance (g : List Byte) : Decidable (GroupOk g) := inferInstanceAs (Decidable (_ ∧ _))

theorem firstGroup_length {bs g : List Byte} (h : firstGroup bs = some g) : 0 < g.length := by
  cases bs with
  | nil => simp [firstGroup] at h
  | cons b bs =>
    unfold firstGroup at h
    split at h
    · cases h; simp
    · cases hf : firstGroup bs with
      | none => simp [hf] at h
      | some g' => simp [hf] at h; subst h; simp

/-- The numbers of a byte string that consists of varints; `none` if it does not. -/
def parseVarints (bs : List Byte) : Option (List Nat) :=
  if bs = [] then some []
  else match _h : firstGroup bs with
    | none => none
    | some g => if GroupOk g then (parseVarints (bs.drop g.length)).map (groupValue g :: ·) else none
termination_by bs.length
decreasing_by
  have := firstGroup_length _h
  rename_i hn _
  have : 0 < bs.length := by cases bs with
    | nil => exact absurd rfl hn
    | cons => simp
  rw [List.length_drop]; omega

end SVB.Spec
