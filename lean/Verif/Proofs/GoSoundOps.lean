import Verif.Proofs.GoSafe

/-! # Values of the right types: operators, indexing, slicing, conversions, predeclared and external functions -/

set_option autoImplicit false

namespace SVB.Go

variable (P : Program) (pkgs : List Nat)

/-- The value is one of the type. -/
def HasType : Val → Ty → Prop
  | .const x, t => t = .const x
  | .int _, .int => True
  | .int _, .named p n => isIntName P p n = true
  | .u8 _, t => t = .u8
  | .u16 _, t => t = .u16
  | .u32 _, t => t = .u32
  | .u64 _, t => t = .u64
  | .bool _, t => t = .bool
  | .bytes _, t => t = .bytes
  | .words _, t => t = .words
  | .table _ d, t => t = .table d
  | .arr xs, t => t = .arr xs.length
  | .str _, t => t = .str
  | .fn p g, .named q n => ∃ s, fnName P q n = some s ∧ sigOf P pkgs p g = some s ∧ isExternal P p g = false
  | .fn p g, .fn q h => p = q ∧ g = h
  | .type t, u => u = .type t
  | _, _ => False

def HasTypes : List Val → List Ty → Prop
  | [], [] => True
  | v :: vs, t :: ts => HasType P pkgs v t ∧ HasTypes vs ts
  | _, _ => False

def EnvOk : Env → TEnv → Prop
  | [], [] => True
  | (x, v) :: e, (y, t) :: Γ => x = y ∧ HasType P pkgs v t ∧ EnvOk e Γ
  | _, _ => False

variable {P : Program} {pkgs : List Nat}

/-! ## What a value of a type looks like -/

theorem ht_const {v : Val} {x : Int} (h : HasType P pkgs v (.const x)) : v = .const x := by
  cases v <;> simp_all [HasType]
theorem ht_int {v : Val} (h : HasType P pkgs v .int) : ∃ x, v = .int x := by
  cases v <;> simp_all [HasType]
theorem ht_u8 {v : Val} (h : HasType P pkgs v .u8) : ∃ x, v = .u8 x := by
  cases v <;> simp_all [HasType]
theorem ht_u16 {v : Val} (h : HasType P pkgs v .u16) : ∃ x, v = .u16 x := by
  cases v <;> simp_all [HasType]
theorem ht_u32 {v : Val} (h : HasType P pkgs v .u32) : ∃ x, v = .u32 x := by
  cases v <;> simp_all [HasType]
theorem ht_u64 {v : Val} (h : HasType P pkgs v .u64) : ∃ x, v = .u64 x := by
  cases v <;> simp_all [HasType]
theorem ht_bool {v : Val} (h : HasType P pkgs v .bool) : ∃ x, v = .bool x := by
  cases v <;> simp_all [HasType]
theorem ht_str {v : Val} (h : HasType P pkgs v .str) : ∃ x, v = .str x := by
  cases v <;> simp_all [HasType]
theorem ht_bytes {v : Val} (h : HasType P pkgs v .bytes) : ∃ x, v = .bytes x := by
  cases v <;> simp_all [HasType]
theorem ht_words {v : Val} (h : HasType P pkgs v .words) : ∃ x, v = .words x := by
  cases v <;> simp_all [HasType]
theorem ht_table {v : Val} {d : List Nat} (h : HasType P pkgs v (.table d)) : ∃ b, v = .table b d := by
  cases v <;> simp_all [HasType]
theorem ht_arr {v : Val} {n : Nat} (h : HasType P pkgs v (.arr n)) : ∃ xs, v = .arr xs ∧ xs.length = n := by
  cases v <;> simp_all [HasType]
theorem ht_type {v : Val} {t : GoType} (h : HasType P pkgs v (.type t)) : v = .type t := by
  cases v <;> simp_all [HasType]
theorem ht_fn {v : Val} {p g : Nat} (h : HasType P pkgs v (.fn p g)) : v = .fn p g := by
  cases v <;> simp_all [HasType]

theorem ht_named {v : Val} {p n : Nat} (h : HasType P pkgs v (.named p n)) :
    (isIntName P p n = true ∧ ∃ x, v = .int x) ∨
      (∃ q g s, v = .fn q g ∧ fnName P p n = some s ∧ sigOf P pkgs q g = some s ∧ isExternal P q g = false) := by
  cases v
  case int x => exact .inl ⟨h, x, rfl⟩
  case fn q g => obtain ⟨s, h⟩ := h; exact .inr ⟨q, g, s, rfl, h⟩
  all_goals simp_all [HasType]

theorem ht_isInt {v : Val} {t : Ty} (h : HasType P pkgs v t) (ht : isInt P t = true) : ∃ x, v = .int x := by
  cases t <;> simp only [isInt, Bool.false_eq_true] at ht
  · exact ht_int h
  · rcases ht_named h with ⟨_, x⟩ | ⟨q, g, s, rfl, h1, _⟩
    · exact x
    · simp only [isIntName] at ht
      simp only [fnName] at h1
      split at ht <;> simp_all

theorem ht_of_isInt {t : Ty} (ht : isInt P t = true) (x : Int) : HasType P pkgs (.int x) t := by
  cases t <;> simp only [isInt, Bool.false_eq_true] at ht
  · trivial
  · exact ht

/-! ## Integers -/

theorem toInt_unsigned {v : Val} {t : Ty} (h : HasType P pkgs v t) (ht : isUnsigned t = true) : ∃ n : Nat, v.toInt = some n := by
  cases t <;> simp only [isUnsigned, Bool.false_eq_true] at ht
  · obtain ⟨x, rfl⟩ := ht_u8 h; exact ⟨_, rfl⟩
  · obtain ⟨x, rfl⟩ := ht_u16 h; exact ⟨_, rfl⟩
  · obtain ⟨x, rfl⟩ := ht_u32 h; exact ⟨_, rfl⟩
  · obtain ⟨x, rfl⟩ := ht_u64 h; exact ⟨_, rfl⟩

theorem toInt_index {v : Val} {t : Ty} (h : HasType P pkgs v t) (ht : isIndex t = true) : ∃ n, v.toInt = some n := by
  unfold isIndex at ht
  split at ht
  · rw [ht_const h]; exact ⟨_, rfl⟩
  · obtain ⟨x, rfl⟩ := ht_int h; exact ⟨_, rfl⟩
  · obtain ⟨n, hn⟩ := toInt_unsigned h ht; exact ⟨_, hn⟩

/-! ## Operators -/

theorem opCmp_some {op : Op} (h : op.isCmp = true) (a b : Int) : ∃ r, opCmp op a b = some r := by
  cases op <;> simp only [Op.isCmp, Bool.false_eq_true] at h <;> exact ⟨_, rfl⟩

theorem binBits_sound {w : Nat} {mk : BitVec w → Val} {op : Op} {d : Bool} {t r : Ty} (hmk : ∀ x, HasType P pkgs (mk x) t)
    (ht : isInt P t = false) (h : opTy P op d t = some r) (a b : BitVec w) :
    ∃ v, binBits mk op a b = some v ∧ HasType P pkgs v r := by
  unfold opTy at h
  split at h
  · split at h
    · next hc =>
      obtain ⟨x, hx⟩ := opCmp_some hc a.toNat b.toNat
      cases h
      exact ⟨.bool x, by simp only [binBits, hc, if_true, hx, Option.map_some], rfl⟩
    · next hc =>
      have hc : op.isCmp = false := by simpa using hc
      cases op <;> simp only [ht, Bool.and_false, Bool.false_eq_true, if_false, reduceCtorEq, Option.some.injEq] at h <;>
        first
        | (subst h; exact ⟨_, rfl, hmk _⟩)
  · cases h

theorem binInt_sound {op : Op} {d : Bool} {t r : Ty} (ht : isInt P t = true) (h : opTy P op d t = some r) (a b : Int)
    (hd : op = .div → d = true → b ≠ 0) : ∃ v, binInt op a b = some v ∧ HasType P pkgs v r := by
  unfold opTy at h
  rw [ht, Bool.or_true, if_pos rfl] at h
  split at h
  · next hc =>
    obtain ⟨x, hx⟩ := opCmp_some hc a b
    cases h
    exact ⟨.bool x, by simp only [binInt, hc, if_true, hx, Option.map_some], rfl⟩
  · next hc =>
    have hc : op.isCmp = false := by simpa using hc
    cases op <;> simp only [reduceCtorEq, Option.some.injEq] at h
    case div =>
      cases d
      · cases h
      · simp only [Bool.and_true, if_true] at h
        cases h
        have hb := hd rfl rfl
        exact ⟨.int (int64 (goDiv a b)), by simp only [binInt, Op.isCmp, Bool.false_eq_true, if_false, opInt, if_neg hb,
          Option.map_some], ht_of_isInt ht _⟩
    all_goals (subst h; exact ⟨_, rfl, ht_of_isInt ht _⟩)

theorem binU8 {op : Op} {d : Bool} {r : Ty} (h : opTy P op d .u8 = some r) (a b : BitVec 8) :
    ∃ v, binBits .u8 op a b = some v ∧ HasType P pkgs v r :=
  binBits_sound (mk := .u8) (t := .u8) (fun _ => rfl) rfl h a b

theorem binU16 {op : Op} {d : Bool} {r : Ty} (h : opTy P op d .u16 = some r) (a b : BitVec 16) :
    ∃ v, binBits .u16 op a b = some v ∧ HasType P pkgs v r :=
  binBits_sound (mk := .u16) (t := .u16) (fun _ => rfl) rfl h a b

theorem binU32 {op : Op} {d : Bool} {r : Ty} (h : opTy P op d .u32 = some r) (a b : BitVec 32) :
    ∃ v, binBits .u32 op a b = some v ∧ HasType P pkgs v r :=
  binBits_sound (mk := .u32) (t := .u32) (fun _ => rfl) rfl h a b

theorem binU64 {op : Op} {d : Bool} {r : Ty} (h : opTy P op d .u64 = some r) (a b : BitVec 64) :
    ∃ v, binBits .u64 op a b = some v ∧ HasType P pkgs v r :=
  binBits_sound (mk := .u64) (t := .u64) (fun _ => rfl) rfl h a b

/-- A constant operand takes the type of the other one. -/
theorem binVal_sound {op : Op} {a b r : Ty} {x y : Val} (hs : op.isShift = false) (h : binTy P op a b = some r)
    (hx : HasType P pkgs x a) (hy : HasType P pkgs y b) : ∃ v, binVal op x y = some v ∧ HasType P pkgs v r := by
  unfold binTy at h
  rw [hs] at h
  simp only [Bool.false_eq_true, if_false] at h
  have num : ∀ {d t}, opTy P op d t = some r → t = .u8 ∨ t = .u16 ∨ t = .u32 ∨ t = .u64 ∨ isInt P t = true := by
    intro d t h
    unfold opTy at h
    split at h
    · next h =>
      cases t <;> simp_all [isUnsigned, isInt]
    · cases h
  split at h
  · -- two constants
    rw [ht_const hx, ht_const hy]
    split at h
    · next c d hc =>
      obtain ⟨z, hz⟩ := opCmp_some hc c d
      cases h
      exact ⟨.bool z, by simp only [binVal, hc, if_true, hz, Option.map_some], rfl⟩
    · next c d hc =>
      rw [Option.map_eq_some_iff] at h
      obtain ⟨z, hz, rfl⟩ := h
      have hc : op.isCmp = false := by simpa using hc
      exact ⟨.const z, by simp only [binVal, hc, Bool.false_eq_true, if_false, hz, Option.map_some], rfl⟩
  · -- constant on the left
    rw [ht_const hx]
    split at h
    · rcases num h with rfl | rfl | rfl | rfl | ht
      · obtain ⟨k, rfl⟩ := ht_u8 hy; exact binU8 h _ _
      · obtain ⟨k, rfl⟩ := ht_u16 hy; exact binU16 h _ _
      · obtain ⟨k, rfl⟩ := ht_u32 hy; exact binU32 h _ _
      · obtain ⟨k, rfl⟩ := ht_u64 hy; exact binU64 h _ _
      · obtain ⟨k, rfl⟩ := ht_isInt hy ht; exact binInt_sound ht h _ _ (fun _ e => by cases e)
    · cases h
  · -- constant on the right
    rw [ht_const hy]
    split at h
    · rcases num h with rfl | rfl | rfl | rfl | ht
      · obtain ⟨k, rfl⟩ := ht_u8 hx; exact binU8 h _ _
      · obtain ⟨k, rfl⟩ := ht_u16 hx; exact binU16 h _ _
      · obtain ⟨k, rfl⟩ := ht_u32 hx; exact binU32 h _ _
      · obtain ⟨k, rfl⟩ := ht_u64 hx; exact binU64 h _ _
      · obtain ⟨k, rfl⟩ := ht_isInt hx ht; exact binInt_sound ht h _ _ (fun _ e => by simpa using e)
    · cases h
  · split at h
    · next e =>
      subst e
      rcases num h with rfl | rfl | rfl | rfl | ht
      · obtain ⟨k, rfl⟩ := ht_u8 hx; obtain ⟨l, rfl⟩ := ht_u8 hy; exact binU8 h _ _
      · obtain ⟨k, rfl⟩ := ht_u16 hx; obtain ⟨l, rfl⟩ := ht_u16 hy; exact binU16 h _ _
      · obtain ⟨k, rfl⟩ := ht_u32 hx; obtain ⟨l, rfl⟩ := ht_u32 hy; exact binU32 h _ _
      · obtain ⟨k, rfl⟩ := ht_u64 hx; obtain ⟨l, rfl⟩ := ht_u64 hy; exact binU64 h _ _
      · obtain ⟨k, rfl⟩ := ht_isInt hx ht; obtain ⟨l, rfl⟩ := ht_isInt hy ht
        exact binInt_sound ht h _ _ (fun _ e => by cases e)
    · cases h

theorem opShift_sound {op : Op} {t : Ty} {x : Val} (hs : op.isShift = true) (ht : (isUnsigned t || decide (t = .int)) = true)
    (hx : HasType P pkgs x t) (n : Nat) : ∃ v, opShift op n x = some v ∧ HasType P pkgs v t := by
  cases op <;> simp only [Op.isShift, Bool.false_eq_true] at hs <;>
    (cases t <;> simp only [isUnsigned, Bool.false_or, decide_eq_true_eq, reduceCtorEq, Bool.true_or] at ht)
  all_goals first
    | (obtain ⟨k, rfl⟩ := ht_u8 hx; exact ⟨_, rfl, rfl⟩)
    | (obtain ⟨k, rfl⟩ := ht_u16 hx; exact ⟨_, rfl, rfl⟩)
    | (obtain ⟨k, rfl⟩ := ht_u32 hx; exact ⟨_, rfl, rfl⟩)
    | (obtain ⟨k, rfl⟩ := ht_u64 hx; exact ⟨_, rfl, rfl⟩)
    | (obtain ⟨k, rfl⟩ := ht_int hx; exact ⟨_, rfl, trivial⟩)

theorem applyOp_sound {op : Op} {a b r : Ty} {x y : Val} (h : binTy P op a b = some r) (hx : HasType P pkgs x a)
    (hy : HasType P pkgs y b) : (applyOp op x y).Safe (HasType P pkgs · r) := by
  unfold applyOp
  cases hs : op.isShift with
  | false =>
    simp only [Bool.false_eq_true, if_false]
    obtain ⟨v, hv, ht⟩ := binVal_sound hs h hx hy
    exact Safe.orFault (by simp only [binAny, hs, Bool.false_eq_true, if_false, hv]) ht
  | true =>
    simp only [if_true]
    unfold binTy at h
    simp only [hs, if_true] at h
    split at h
    · next ha =>
      have key : ∀ n : Int, y.toInt = some n → r = a → Prog.Safe (HasType P pkgs · r) (match y.toInt with
          | some n => if 0 ≤ n then orFault (binAny op x y) else .panic (.explicit "negative shift amount")
          | none => fault) := by
        intro n hn hr
        rw [hn]
        simp only []
        subst hr
        split
        · next h0 =>
          obtain ⟨v, hv, ht⟩ := opShift_sound hs ha hx n.toNat
          exact Safe.orFault (by simp only [binAny, hs, if_true, hn, h0, hv]) ht
        · exact Safe.panic nofun
      split at h
      · split at h
        · rw [ht_const hy] at key ⊢
          exact key _ rfl (Option.some.inj h).symm
        · cases h
      · split at h
        · next hb =>
          have : ∃ n, y.toInt = some n := by
            rcases Bool.or_eq_true _ _ ▸ hb with hb | hb
            · obtain ⟨n, hn⟩ := toInt_unsigned hy hb; exact ⟨_, hn⟩
            · rw [decide_eq_true_eq] at hb
              subst hb
              obtain ⟨n, rfl⟩ := ht_int hy; exact ⟨_, rfl⟩
          obtain ⟨n, hn⟩ := this
          exact key n hn (Option.some.inj h).symm
        · cases h
    · cases h

/-- Comparison of the value of a `switch` with that of a case. -/
theorem binAny_eq_sound {a b : Ty} {x y : Val} (h : binTy P .eq a b = some .bool) (hx : HasType P pkgs x a)
    (hy : HasType P pkgs y b) : ∃ c, binAny .eq x y = some (.bool c) := by
  obtain ⟨v, hv, ht⟩ := binVal_sound rfl h hx hy
  obtain ⟨c, rfl⟩ := ht_bool ht
  exact ⟨c, hv⟩

/-! ## Indexing and slicing -/

theorem loadRow_safe (p : Ptr) (n : Nat) : (loadRow p n).Safe fun l => l.length = n := by
  induction n generalizing p with
  | zero => exact Safe.ret rfl
  | succ n ih =>
    exact Safe.bind (Safe.load8_ok _) fun _ _ => Safe.bind (ih _) fun l hl => Safe.ret (by simp [hl])

theorem indexVal_sound {a i r : Ty} {x : Val} (h : indexTy a i = some r) (hx : HasType P pkgs x a) (k : Int) :
    (indexVal x k).Safe (HasType P pkgs · r) := by
  unfold indexTy at h
  split at h
  · split at h
    · cases h
      obtain ⟨s, rfl⟩ := ht_bytes hx
      exact Safe.bind (Safe.getB_ok _ _) fun _ _ => Safe.ret rfl
    · cases h
      obtain ⟨s, rfl⟩ := ht_words hx
      exact Safe.bind (Safe.getW_ok _ _) fun _ _ => Safe.ret rfl
    · split at h
      · cases h
        obtain ⟨b, rfl⟩ := ht_table hx
        simp only [indexVal]
        split
        · exact Safe.bind (Safe.load8_ok _) fun _ _ => Safe.ret rfl
        · exact Safe.panic nofun
      · cases h
    · split at h
      · cases h
        obtain ⟨b, rfl⟩ := ht_table hx
        simp only [indexVal]
        split
        · exact Safe.bind (loadRow_safe _ _) fun l hl => Safe.ret (by rw [← hl]; rfl)
        · exact Safe.panic nofun
      · cases h
    · split at h
      · cases h
        obtain ⟨xs, rfl, _⟩ := ht_arr hx
        simp only [indexVal]
        split
        · exact Safe.ret rfl
        · exact Safe.panic nofun
      · cases h
    · cases h
  · cases h

theorem isSlice_iff {t : Ty} (h : isSlice t = true) : t = .bytes ∨ t = .words := by simpa [isSlice] using h

theorem fromVal_sound {a : Ty} {x : Val} (h : isSlice a = true) (hx : HasType P pkgs x a) (k : Int) :
    (fromVal x k).Safe (HasType P pkgs · a) := by
  rcases isSlice_iff h with rfl | rfl
  · obtain ⟨s, rfl⟩ := ht_bytes hx
    exact Safe.bind (Safe.from_ok _ _) fun _ _ => Safe.ret rfl
  · obtain ⟨s, rfl⟩ := ht_words hx
    exact Safe.bind (Safe.from_ok _ _) fun _ _ => Safe.ret rfl

theorem rangeVal_sound {a : Ty} {x : Val} (h : isSlice a = true) (hx : HasType P pkgs x a) (k l : Int) :
    (rangeVal x k l).Safe (HasType P pkgs · a) := by
  rcases isSlice_iff h with rfl | rfl
  · obtain ⟨s, rfl⟩ := ht_bytes hx
    exact Safe.bind (Safe.range_ok _ _ _) fun _ _ => Safe.ret rfl
  · obtain ⟨s, rfl⟩ := ht_words hx
    exact Safe.bind (Safe.range_ok _ _ _) fun _ _ => Safe.ret rfl

/-! ## Assignment -/

/-- A value that is no constant and is assignable to a type is one of the type. -/
theorem assign_typed {s t : Ty} {v : Val} (hv : HasType P pkgs v s) (h : assignable P pkgs s t = true)
    (hc : ∀ x, s ≠ .const x) : HasType P pkgs v t := by
  unfold assignable at h
  split at h
  · exact absurd rfl (hc _)
  · next p g =>
    rw [ht_fn hv]
    split at h
    · next q n =>
      simp only [Bool.and_eq_true, decide_eq_true_eq, Bool.not_eq_true'] at h
      obtain ⟨s, hs⟩ := Option.isSome_iff_exists.1 h.1.1
      exact ⟨s, hs, by rw [h.2, hs], h.1.2⟩
    · cases h
  · rw [decide_eq_true_eq] at h; exact h ▸ hv

theorem coerce_const {pkg : Nat} {g : GoType} {t : Ty} {x : Int} (hr : resolve P pkg g = some t)
    (h : representable P x t = true) : ∃ w, coerce g (.const x) = some w ∧ HasType P pkgs w t := by
  have hi : ∀ {p n}, representable P x (.named p n) = true → HasType P pkgs (.int x) (.named p n) := by
    intro p n h
    simp only [representable, Bool.and_eq_true] at h
    exact h.1
  cases g with
  | named n =>
    simp only [resolve] at hr
    have hb : ∀ {u}, basic n = some u → representable P x u = true →
        ∃ w, coerce (.named n) (.const x) = some w ∧ HasType P pkgs w u := by
      intro u hu hr
      unfold basic at hu
      simp only [coerce]
      repeat' split at hu
      all_goals cases hu
      all_goals first
        | (simp only [representable, Bool.false_eq_true] at hr; done)
        | (rename_i e; rcases e with rfl | rfl <;> exact ⟨_, rfl, rfl⟩)
        | (rename_i e; subst e; exact ⟨_, rfl, rfl⟩)
        | (rename_i e; subst e; exact ⟨_, rfl, trivial⟩)
    split at hr
    · next u hu => cases hr; exact hb hu h
    · next hn =>
      rw [Option.map_eq_some_iff] at hr
      obtain ⟨d, _, rfl⟩ := hr
      have : isNumType n = false := by
        cases e : isNumType n with
        | false => rfl
        | true =>
          exfalso
          simp only [isNumType, List.any_cons, List.any_nil, Bool.or_false, Bool.or_eq_true, beq_iff_eq] at e
          rcases e with e | e | e | e | e | e <;> subst e <;> revert hn <;> decide
      exact ⟨.int x, by simp only [coerce, this, Bool.false_eq_true, if_false], hi h⟩
  | qual p n =>
    simp only [resolve, Option.map_eq_some_iff] at hr
    obtain ⟨d, _, rfl⟩ := hr
    exact ⟨.int x, rfl, hi h⟩
  | slice u =>
    cases u <;> simp only [resolve, reduceCtorEq] at hr
    split at hr
    · cases hr; cases h
    · split at hr <;> cases hr
      cases h
  | array n u => cases hr
  | ptr u =>
    simp only [resolve, Option.map_eq_some_iff] at hr
    obtain ⟨d, _, rfl⟩ := hr
    cases h

theorem coerce_sound {pkg : Nat} {g : GoType} {s t : Ty} {v : Val} (hr : resolve P pkg g = some t)
    (hv : HasType P pkgs v s) (h : assignable P pkgs s t = true) : ∃ w, coerce g v = some w ∧ HasType P pkgs w t := by
  by_cases hc : ∃ x, s = .const x
  · obtain ⟨x, rfl⟩ := hc
    rw [ht_const hv]
    exact coerce_const hr h
  · have ht := assign_typed hv h fun x e => hc ⟨x, e⟩
    refine ⟨v, ?_, ht⟩
    cases v
    case const x => exact absurd ⟨x, hv⟩ hc
    all_goals rfl

theorem coerceLike_sound {s t : Ty} {v old : Val} (ho : HasType P pkgs old t)
    (hv : HasType P pkgs v s) (h : assignable P pkgs s t = true) :
    ∃ w, coerceLike old v = some w ∧ HasType P pkgs w t := by
  by_cases hc : ∃ x, s = .const x
  · obtain ⟨x, rfl⟩ := hc
    rw [ht_const hv]
    unfold assignable at h
    cases t <;> simp only [representable, Bool.false_eq_true] at h
    case named p n =>
      obtain ⟨k, rfl⟩ := ht_isInt ho (by simp only [Bool.and_eq_true] at h; exact h.1)
      exact ⟨_, rfl, by simp only [Bool.and_eq_true] at h; exact h.1⟩
    · obtain ⟨k, rfl⟩ := ht_int ho; exact ⟨_, rfl, trivial⟩
    · obtain ⟨k, rfl⟩ := ht_u8 ho; exact ⟨_, rfl, rfl⟩
    · obtain ⟨k, rfl⟩ := ht_u16 ho; exact ⟨_, rfl, rfl⟩
    · obtain ⟨k, rfl⟩ := ht_u32 ho; exact ⟨_, rfl, rfl⟩
    · obtain ⟨k, rfl⟩ := ht_u64 ho; exact ⟨_, rfl, rfl⟩
  · have ht := assign_typed hv h fun x e => hc ⟨x, e⟩
    refine ⟨v, ?_, ht⟩
    cases v
    case const x => exact absurd ⟨x, hv⟩ hc
    all_goals rfl

theorem declared_sound {s t : Ty} {v : Val} (hv : HasType P pkgs v s) (h : declaredTy P s = some t) :
    HasType P pkgs v.declared t := by
  unfold declaredTy at h
  split at h
  · split at h <;> cases h
    rw [ht_const hv]; trivial
  · cases h
  · cases h
  · cases h
    cases v
    case const x => next hn _ _ => exact absurd hv (hn x)
    all_goals exact hv

theorem setIndex_sound {a i r s : Ty} {x v : Val} (h : indexTy a i = some r) (hs : isSlice a = true) (hx : HasType P pkgs x a)
    (hv : HasType P pkgs v s) (hr : assignable P pkgs s r = true) (k : Int) : Safe.Ok (setIndex x k v) := by
  unfold indexTy at h
  split at h
  · rcases isSlice_iff hs with rfl | rfl
    · cases h
      obtain ⟨b, rfl⟩ := ht_bytes hx
      obtain ⟨w, hw, ht⟩ := coerceLike_sound (old := .u8 0) (t := .u8) rfl hv hr
      obtain ⟨c, rfl⟩ := ht_u8 ht
      simp only [setIndex, hw]
      exact Safe.setB_ok _ _ _
    · cases h
      obtain ⟨b, rfl⟩ := ht_words hx
      obtain ⟨w, hw, ht⟩ := coerceLike_sound (old := .u32 0) (t := .u32) rfl hv hr
      obtain ⟨c, rfl⟩ := ht_u32 ht
      simp only [setIndex, hw]
      exact Safe.setW_ok _ _ _
  · cases h

theorem zeroOf_sound {pkg : Nat} {g : GoType} {t : Ty} (hr : resolve P pkg g = some t)
    (h : (isUnsigned t || decide (t = .int)) = true) : ∃ w, zeroOf g = some w ∧ HasType P pkgs w t := by
  have h0 : representable P 0 t = true := by
    cases t <;> simp only [isUnsigned, Bool.false_or, decide_eq_true_eq, reduceCtorEq, Bool.true_or] at h <;> rfl
  obtain ⟨w, hw, ht⟩ := coerce_const (pkgs := pkgs) hr h0
  refine ⟨w, ?_, ht⟩
  cases g with
  | named n =>
    simp only [coerce] at hw
    simp only [zeroOf]
    split at hw
    · next hn => simp only [hn, if_true]; exact hw
    · next hn =>
      cases hw
      simp only [resolve] at hr
      exfalso
      split at hr
      · next u hu =>
        cases hr
        apply hn
        unfold basic at hu
        repeat' split at hu
        all_goals cases hu
        all_goals first
          | (rename_i e; rcases e with rfl | rfl <;> rfl)
          | (rename_i e; subst e; rfl)
          | (simp [isUnsigned] at h; done)
      · rw [Option.map_eq_some_iff] at hr
        obtain ⟨d, _, rfl⟩ := hr
        simp [isUnsigned] at h
  | qual p n =>
    simp only [resolve, Option.map_eq_some_iff] at hr
    obtain ⟨d, _, rfl⟩ := hr
    simp [isUnsigned] at h
  | slice u =>
    cases u <;> simp only [resolve, reduceCtorEq] at hr
    split at hr
    · cases hr; simp [isUnsigned] at h
    · split at hr <;> cases hr
      simp [isUnsigned] at h
  | array n u => cases hr
  | ptr u =>
    simp only [resolve, Option.map_eq_some_iff] at hr
    obtain ⟨d, _, rfl⟩ := hr
    simp [isUnsigned] at h

/-! ## Lists of values -/

theorem hts_cons {t : Ty} {ts : List Ty} {vs : List Val} (h : HasTypes P pkgs vs (t :: ts)) :
    ∃ v vs', vs = v :: vs' ∧ HasType P pkgs v t ∧ HasTypes P pkgs vs' ts := by
  cases vs with
  | nil => cases h
  | cons v vs => exact ⟨v, vs, rfl, h⟩

theorem hts_nil {vs : List Val} (h : HasTypes P pkgs vs []) : vs = [] := by
  cases vs with
  | nil => rfl
  | cons v vs => cases h

theorem hts_one {t : Ty} {vs : List Val} (h : HasTypes P pkgs vs [t]) : ∃ v, vs = [v] ∧ HasType P pkgs v t := by
  obtain ⟨v, l, rfl, hv, hl⟩ := hts_cons h
  exact ⟨v, by rw [hts_nil hl], hv⟩

theorem hts_two {s t : Ty} {vs : List Val} (h : HasTypes P pkgs vs [s, t]) :
    ∃ v w, vs = [v, w] ∧ HasType P pkgs v s ∧ HasType P pkgs w t := by
  obtain ⟨v, l, rfl, hv, hl⟩ := hts_cons h
  obtain ⟨w, rfl, hw⟩ := hts_one hl
  exact ⟨v, w, rfl, hv, hw⟩

theorem coerceAll_sound {pkg : Nat} : ∀ {l : List (Nat × GoType)} {ss ts : List Ty} {vs : List Val},
    resolveAll P pkg l = some ts → HasTypes P pkgs vs ss → assignableAll P pkgs ss ts = true →
    ∃ e, coerceAll l vs = some e ∧ EnvOk P pkgs e ((l.map Prod.fst).zip ts) ∧ HasTypes P pkgs (e.map Prod.snd) ts := by
  intro l
  induction l with
  | nil =>
    intro ss ts vs hr hv h
    cases hr
    cases ss with
    | nil => rw [hts_nil hv]; exact ⟨[], rfl, trivial, trivial⟩
    | cons s ss => cases h
  | cons p l ih =>
    intro ss ts vs hr hv h
    obtain ⟨x, g⟩ := p
    simp only [resolveAll, Option.bind_eq_bind, Option.bind_eq_some_iff, Option.pure_def, Option.some.injEq] at hr
    obtain ⟨t, h1, r, h2, rfl⟩ := hr
    cases ss with
    | nil => cases h
    | cons s ss =>
      obtain ⟨v, vs, rfl, hv, hvs⟩ := hts_cons hv
      simp only [assignableAll, Bool.and_eq_true] at h
      obtain ⟨w, hw, ht⟩ := coerce_sound h1 hv h.1
      obtain ⟨e, he, h3, h4⟩ := ih h2 hvs h.2
      exact ⟨(x, w) :: e, by simp [coerceAll, hw, he], ⟨rfl, ht, h3⟩, ⟨ht, h4⟩⟩

/-! ## Conversions and predeclared functions -/

theorem convert_sound {n : Nat} {r : Ty} {v : Val} {t : Ty} (hn : basic n = some r)
    (hr : (isUnsigned r || decide (r = .int)) = true) (hv : HasType P pkgs v t)
    (ht : (∃ x, t = .const x) ∨ isUnsigned t = true ∨ isInt P t = true) :
    ∃ w, convert n v = some w ∧ HasType P pkgs w r := by
  have hi : ∃ x, v.toInt = some x := by
    rcases ht with ⟨x, rfl⟩ | ht | ht
    · rw [ht_const hv]; exact ⟨_, rfl⟩
    · obtain ⟨k, h⟩ := toInt_unsigned hv ht; exact ⟨_, h⟩
    · obtain ⟨k, rfl⟩ := ht_isInt hv ht; exact ⟨_, rfl⟩
  have hb : ∀ w, ∃ x, v.toBits w = some x := by
    obtain ⟨x, hx⟩ := hi
    intro w
    cases v <;> first | exact ⟨_, rfl⟩ | cases hx
  obtain ⟨i, hi⟩ := hi
  obtain ⟨b8, h8⟩ := hb 8
  obtain ⟨b16, h16⟩ := hb 16
  obtain ⟨b32, h32⟩ := hb 32
  obtain ⟨b64, h64⟩ := hb 64
  unfold basic at hn
  unfold convert
  split at hn
  · next e => cases hn; exact ⟨.u8 b8, by simp only [e, if_true, h8, Option.map_some], rfl⟩
  next e1 =>
  rw [if_neg e1]
  split at hn
  · next e => cases hn; exact ⟨.u16 b16, by simp only [e, if_true, h16, Option.map_some], rfl⟩
  next e2 =>
  rw [if_neg e2]
  split at hn
  · next e => cases hn; exact ⟨.u32 b32, by simp only [e, if_true, h32, Option.map_some], rfl⟩
  next e3 =>
  rw [if_neg e3]
  split at hn
  · next e => cases hn; exact ⟨.u64 b64, by simp only [e, if_true, h64, Option.map_some], rfl⟩
  next e4 =>
  rw [if_neg e4]
  split at hn
  · next e => cases hn; exact ⟨.int (int64 i), by simp only [e, if_true, hi, Option.map_some], trivial⟩
  · exfalso
    split at hn
    · cases hn; simp [isUnsigned] at hr
    · split at hn <;> cases hn
      simp [isUnsigned] at hr

theorem builtin_sound (C : Ctx) {n : Nat} {ts rs : List Ty} {vs : List Val} (h : builtinTy P n ts = some rs)
    (hv : HasTypes P pkgs vs ts) : (builtin C n vs).Safe (HasTypes P pkgs · rs) := by
  unfold builtinTy at h
  unfold builtin
  split at h
  · next e =>
    rw [if_pos e]
    split at h
    · split at h <;> cases h
      next hs =>
      obtain ⟨v, rfl, hv'⟩ := hts_one hv
      rcases isSlice_iff hs with rfl | rfl
      · obtain ⟨s, rfl⟩ := ht_bytes hv'; exact Safe.ret ⟨trivial, trivial⟩
      · obtain ⟨s, rfl⟩ := ht_words hv'; exact Safe.ret ⟨trivial, trivial⟩
    · cases h
  next e1 =>
  rw [if_neg e1]
  split at h
  · next e =>
    rw [if_pos e]
    split at h
    · split at h <;> cases h
      next hs =>
      obtain ⟨v, w, rfl, hv', hw⟩ := hts_two hv
      rw [ht_type hv']
      obtain ⟨k, hk⟩ := toInt_index hw hs.2
      simp only [hs.1, if_true, hk]
      exact Safe.bind (Safe.makeBytes_ok _ _) fun _ _ => Safe.ret ⟨rfl, trivial⟩
    · cases h
  next e2 =>
  rw [if_neg e2]
  split at h
  · next e =>
    rw [if_pos e]
    split at h
    · obtain ⟨v, rfl, hv'⟩ := hts_one hv
      obtain ⟨t, rfl⟩ := ht_str hv'
      exact Safe.panic nofun
    · cases h
  next e3 =>
  rw [if_neg e3]
  split at h
  · next t r hr =>
    obtain ⟨v, rfl, hv'⟩ := hts_one hv
    split at h
    · next hu =>
      have key : (∃ x, t = .const x) ∨ isUnsigned t = true ∨ isInt P t = true → rs = [r] →
          Prog.Safe (HasTypes P pkgs · rs) (do return [← orFault (convert n v)]) := by
        intro ht e
        subst e
        obtain ⟨w, hw, ht⟩ := convert_sound hr hu hv' ht
        exact Safe.bind (P := (HasType P pkgs · r)) (Safe.orFault hw ht) fun _ h => Safe.ret ⟨h, trivial⟩
      split at h
      · split at h
        · exact key (.inl ⟨_, rfl⟩) (Option.some.inj h).symm
        · cases h
      · split at h
        · next hh => exact key (.inr (by simpa using hh)) (Option.some.inj h).symm
        · cases h
    · cases h
  · cases h

/-- A call of `panic` does not return. -/
theorem panic_sound (C : Ctx) {ts rs : List Ty} {vs : List Val} (h : builtinTy P n!"panic" ts = some rs)
    (hv : HasTypes P pkgs vs ts) : (builtin C n!"panic" vs).Safe fun _ => False := by
  simp only [builtinTy, Nat.reduceEqDiff, if_false, if_true] at h
  split at h
  · obtain ⟨v, rfl, hv'⟩ := hts_one hv
    obtain ⟨t, rfl⟩ := ht_str hv'
    simp only [builtin, Nat.reduceEqDiff, if_false, if_true]
    exact Safe.panic nofun
  · cases h

theorem external_sound {p g : Nat} {ps rs : List Ty} {vs : List Val} (h : externalSig p g = some (ps, rs))
    (hv : HasTypes P pkgs vs ps) : (external p g vs).Safe (HasTypes P pkgs · rs) := by
  unfold externalSig at h
  unfold external
  split at h
  · next e =>
    rw [if_pos e]; cases h
    obtain ⟨v1, l, rfl, h1, hv⟩ := hts_cons hv
    obtain ⟨v2, l, rfl, h2, hv⟩ := hts_cons hv
    obtain ⟨v3, v4, rfl, h3, h4⟩ := hts_two hv
    obtain ⟨_, rfl⟩ := ht_words h1
    obtain ⟨_, rfl⟩ := ht_bytes h2
    obtain ⟨_, rfl⟩ := ht_table h3
    obtain ⟨_, rfl⟩ := ht_table h4
    dsimp only
    have key := Safe.put8Fast_ok
    generalize @Asm.put8uint32FastAsm = q at key ⊢
    exact Safe.bind (key _ _ _ _) fun _ _ => Safe.ret ⟨rfl, trivial⟩
  next e1 =>
  rw [if_neg e1]
  split at h
  · next e =>
    rw [if_pos e]; cases h
    obtain ⟨v1, l, rfl, h1, hv⟩ := hts_cons hv
    obtain ⟨v2, l, rfl, h2, hv⟩ := hts_cons hv
    obtain ⟨v0, l, rfl, h0, hv⟩ := hts_cons hv
    obtain ⟨v3, v4, rfl, h3, h4⟩ := hts_two hv
    obtain ⟨_, rfl⟩ := ht_words h1
    obtain ⟨_, rfl⟩ := ht_bytes h2
    obtain ⟨_, rfl⟩ := ht_u32 h0
    obtain ⟨_, rfl⟩ := ht_table h3
    obtain ⟨_, rfl⟩ := ht_table h4
    dsimp only
    have key := Safe.put8DeltaFast_ok
    generalize @Asm.put8uint32DeltaFastAsm = q at key ⊢
    exact Safe.bind (key _ _ _ _ _) fun _ _ => Safe.ret ⟨rfl, trivial⟩
  next e2 =>
  rw [if_neg e2]
  split at h
  · next e =>
    rw [if_pos e]; cases h
    obtain ⟨v1, l, rfl, h1, hv⟩ := hts_cons hv
    obtain ⟨v2, l, rfl, h2, hv⟩ := hts_cons hv
    obtain ⟨v0, l, rfl, h0, hv⟩ := hts_cons hv
    obtain ⟨v3, v4, rfl, h3, h4⟩ := hts_two hv
    obtain ⟨_, rfl⟩ := ht_bytes h1
    obtain ⟨_, rfl⟩ := ht_words h2
    obtain ⟨_, rfl⟩ := ht_u16 h0
    obtain ⟨_, rfl⟩ := ht_table h3
    obtain ⟨_, rfl⟩ := ht_table h4
    dsimp only
    have key := Safe.get8Fast_ok
    generalize @Asm.get8uint32FastAsm = q at key ⊢
    exact Safe.bind (key _ _ _ _ _) fun _ _ => Safe.ret trivial
  next e3 =>
  rw [if_neg e3]
  split at h
  · next e =>
    rw [if_pos e]; cases h
    obtain ⟨v1, l, rfl, h1, hv⟩ := hts_cons hv
    obtain ⟨v2, l, rfl, h2, hv⟩ := hts_cons hv
    obtain ⟨v0, l, rfl, h0, hv⟩ := hts_cons hv
    obtain ⟨v5, l, rfl, h5, hv⟩ := hts_cons hv
    obtain ⟨v3, v4, rfl, h3, h4⟩ := hts_two hv
    obtain ⟨_, rfl⟩ := ht_bytes h1
    obtain ⟨_, rfl⟩ := ht_words h2
    obtain ⟨_, rfl⟩ := ht_u16 h0
    obtain ⟨_, rfl⟩ := ht_u32 h5
    obtain ⟨_, rfl⟩ := ht_table h3
    obtain ⟨_, rfl⟩ := ht_table h4
    dsimp only
    have key := Safe.get8DeltaFast_ok
    generalize @Asm.get8uint32DeltaFastAsm = q at key ⊢
    exact Safe.bind (key _ _ _ _ _ _) fun _ _ => Safe.ret trivial
  next e4 =>
  rw [if_neg e4]
  split at h
  · next e =>
    rw [if_pos e]; cases h
    obtain ⟨v, rfl, hv'⟩ := hts_one hv
    obtain ⟨_, rfl⟩ := ht_u32 hv'
    exact Safe.ret ⟨trivial, trivial⟩
  next e5 =>
  rw [if_neg e5]
  split at h
  · next e =>
    rw [if_pos e]; cases h
    obtain ⟨v, w, rfl, hv', hw⟩ := hts_two hv
    obtain ⟨_, rfl⟩ := ht_bytes hv'
    obtain ⟨_, rfl⟩ := ht_u64 hw
    dsimp only
    have key := Safe.putUvarint_ok
    generalize @putUvarint = q at key ⊢
    exact Safe.bind (key _ _) fun _ _ => Safe.ret ⟨trivial, trivial⟩
  next e6 =>
  rw [if_neg e6]
  split at h
  · next e =>
    rw [if_pos e]; cases h
    obtain ⟨v, rfl, hv'⟩ := hts_one hv
    obtain ⟨_, rfl⟩ := ht_bytes hv'
    dsimp only
    have key := Safe.uvarint_ok
    generalize @uvarint = q at key ⊢
    exact Safe.bind (key _) fun _ _ => Safe.ret ⟨rfl, trivial, trivial⟩
  · cases h

end SVB.Go
