import Verif.Model.Gen

/-! # Register allocation

A program over virtual registers and the program that results from putting physical registers in their places make the
same accesses and leave the same results, provided no register that is still needed is overwritten.  That condition is
a check of the program and the assignment. -/

set_option autoImplicit false

namespace SVB.Gen
open Asm

/-- The same accesses, and related results. -/
inductive Rel2 {α β : Type} (R : α → β → Prop) : Prog α → Prog β → Prop where
  | ret {a : α} {b : β} : R a b → Rel2 R (.ret a) (.ret b)
  | panic (k : Panic) : Rel2 R (.panic k) (.panic k)
  | load (p : Ptr) {k : Byte → Prog α} {l : Byte → Prog β} :
      (∀ b, Rel2 R (k b) (l b)) → Rel2 R (.load p k) (.load p l)
  | store (p : Ptr) (v : Byte) {k : Prog α} {l : Prog β} : Rel2 R k l → Rel2 R (.store p v k) (.store p v l)

theorem Rel2.bind {α β γ δ : Type} {R : α → β → Prop} {S : γ → δ → Prop} {p : Prog α} {q : Prog β} {f : α → Prog γ}
    {g : β → Prog δ} (h : Rel2 R p q) (hf : ∀ a b, R a b → Rel2 S (f a) (g b)) : Rel2 S (p.bind f) (q.bind g) := by
  induction h with
  | ret h => exact hf _ _ h
  | panic k => exact .panic k
  | load p _ ih => exact .load p ih
  | store p v _ ih => exact .store p v ih

theorem Rel2.refl {α : Type} (p : Prog α) : Rel2 (· = ·) p p := by
  induction p with
  | ret a => exact .ret rfl
  | panic k => exact .panic k
  | load p k ih => exact .load p ih
  | store p v k ih => exact .store p v ih

theorem Rel2.eq {α : Type} {p q : Prog α} (h : Rel2 (· = ·) p q) : p = q := by
  induction h with
  | ret h => rw [h]
  | panic k => rfl
  | load p _ ih => congr; funext b; exact ih b
  | store p v _ ih => rw [ih]

/-- Registers read and written. -/
def readsG {G X : Type} : GInstr G X → List G
  | .MOVQ a _ | .MOVWQZX a _ | .MOVBQZX a _ | .MOVBQZX_mem a _ | .MOVW_ret a _ => [a]
  | .SHLQ _ d | .SHRQ _ d => [d]
  | .ADDQ a d => [a, d]
  | .VLDDQU _ b _ | .VMOVDQU _ _ b | .VPSHUFB b _ _ => [b]
  | _ => []

def readsX {G X : Type} : GInstr G X → List X
  | .VMOVDQU a _ _ | .VPMOVMSKB a _ | .VPSHUFB _ a _ | .VPSLLDQ _ a _ | .VPSHUFD _ a _ => [a]
  | .VPMINUB b a _ | .VPACKUSWB b a _ | .VPMINSW b a _ | .VPADDUSW b a _ | .VPALIGNR _ b a _ | .VPSUBD b a _
  | .VPADDD b a _ => [a, b]
  | _ => []

def writesG {G X : Type} : GInstr G X → List G
  | .MOVQ_arg _ d | .MOVQ _ d | .MOVWQZX_arg _ d | .MOVWQZX _ d | .MOVBQZX _ d | .MOVBQZX_mem _ d | .SHLQ _ d
  | .SHRQ _ d | .ADDQ _ d | .VPMOVMSKB _ d => [d]
  | _ => []

def writesX {G X : Type} : GInstr G X → List X
  | .VLDDQU _ _ d | .VPBROADCASTW _ d | .VBROADCASTSS_arg _ d | .VPMINUB _ _ d | .VPACKUSWB _ _ d
  | .VPMINSW _ _ d | .VPADDUSW _ _ d | .VPSHUFB _ _ d | .VPALIGNR _ _ _ d | .VPSUBD _ _ d | .VPADDD _ _ d
  | .VPSLLDQ _ _ d | .VPSHUFD _ _ d => [d]
  | _ => []

def writesR {G X : Type} : GInstr G X → List Nat
  | .MOVW_ret _ off => [off]
  | _ => []

variable {G X : Type} [DecidableEq G] [DecidableEq X]

/-- After writing the registers `ds`, the virtual registers whose values are in their places. -/
def upd {V P : Type} [DecidableEq V] [DecidableEq P] (f : V → P) (ds l : List V) : List V :=
  match ds with
  | [] => l
  | d :: ds => d :: upd f ds (l.filter fun u => decide (f u ≠ f d))

/-- The check: `gs`, `xs` are the virtual registers whose values are in their places. -/
def allocOk (f : G → GP) (g : X → XR) (outs : List Nat) : List G → List X → List Nat → List (GInstr G X) → Bool
  | _, _, rs, [] => outs.all (rs.contains ·)
  | gs, xs, rs, i :: is =>
    (readsG i).all (gs.contains ·) && (readsX i).all (xs.contains ·) &&
      allocOk f g outs (upd f (writesG i) gs) (upd g (writesX i) xs) (writesR i ++ rs) is

/-- The values of the virtual registers `gs`, `xs` are in their places, and the result slots `rs` agree. -/
structure Holds (f : G → GP) (g : X → XR) (gs : List G) (xs : List X) (rs : List Nat) (s : GSt G X) (t : St) : Prop where
  gp : ∀ u ∈ gs, s.gp u = t.gp (f u)
  x : ∀ u ∈ xs, s.x u = t.x (g u)
  res : ∀ o ∈ rs, s.res.lookup o = t.res.lookup o

variable {f : G → GP} {g : X → XR} {gs : List G} {xs : List X} {rs : List Nat} {s : GSt G X} {t : St}

omit [DecidableEq X] in
theorem Holds.setGP (h : Holds f g gs xs rs s t) (d : G) (v : Val) :
    Holds f g (upd f [d] gs) xs rs (s.setGP d v) (t.setGP (f d) v) where
  gp u hu := by
    simp only [upd, List.mem_cons, List.mem_filter, decide_eq_true_eq] at hu
    simp only [GSt.setGP, St.setGP]
    rcases hu with rfl | ⟨hu, hne⟩
    · simp
    · rw [if_neg hne, if_neg (fun e => hne (by rw [e])), h.gp u hu]
  x := h.x
  res := h.res

omit [DecidableEq G] in
theorem Holds.setX (h : Holds f g gs xs rs s t) (d : X) (v : Vec) :
    Holds f g gs (upd g [d] xs) rs (s.setX d v) (t.setX (g d) v) where
  gp := h.gp
  x u hu := by
    simp only [upd, List.mem_cons, List.mem_filter, decide_eq_true_eq] at hu
    simp only [GSt.setX, St.setX]
    rcases hu with rfl | ⟨hu, hne⟩
    · simp
    · rw [if_neg hne, if_neg (fun e => hne (by rw [e])), h.x u hu]
  res := h.res

/-- One instruction. -/
theorem step_holds (fr : Frame) (i : GInstr G X) (h : Holds f g gs xs rs s t) (hg : ∀ r ∈ readsG i, r ∈ gs)
    (hx : ∀ r ∈ readsX i, r ∈ xs) :
    Rel2 (Holds f g (upd f (writesG i) gs) (upd g (writesX i) xs) (writesR i ++ rs)) (gstep fr s i)
      (step fr t (i.on f g)) := by
  cases i <;> simp only [readsG, readsX, List.mem_cons, List.not_mem_nil, or_false,
    forall_eq, forall_eq_or_imp] at hg hx <;>
    simp only [gstep, GInstr.on, step, writesG, writesX, writesR, List.cons_append, List.nil_append, Prog.pure_eq,
      Prog.bind_eq]
  case MOVQ_arg off d =>
    generalize fr.get off = w
    rcases w with _ | (_ | _ | _ | _) <;> first | exact .ret (h.setGP _ _) | exact .panic _
  case MOVQ a d => rw [h.gp a hg]; exact .ret (h.setGP _ _)
  case MOVWQZX_arg off d =>
    generalize fr.get off = w
    rcases w with _ | (_ | _ | _ | _) <;> first | exact .ret (h.setGP _ _) | exact .panic _
  case MOVWQZX a d =>
    rw [h.gp a hg]; generalize t.gp (f a) = v
    cases v <;> first | exact .ret (h.setGP _ _) | exact .panic _
  case MOVBQZX a d =>
    rw [h.gp a hg]; generalize t.gp (f a) = v
    cases v <;> first | exact .ret (h.setGP _ _) | exact .panic _
  case MOVBQZX_mem a d =>
    rw [h.gp a hg]; generalize t.gp (f a) = v
    cases v
    case ptr => exact .load _ fun b => .ret (h.setGP _ _)
    all_goals exact .panic _
  case MOVW_ret a off =>
    rw [h.gp a hg]; generalize t.gp (f a) = v
    cases v
    case int =>
      refine .ret ⟨h.gp, h.x, fun o ho => ?_⟩
      rcases List.mem_cons.1 ho with rfl | ho
      · simp [List.lookup]
      · simp only [List.lookup]
        split
        · rfl
        · exact h.res o ho
    all_goals exact .panic _
  case SHLQ n d =>
    rw [h.gp d hg]; generalize t.gp (f d) = v
    cases v <;> first | exact .ret (h.setGP _ _) | exact .panic _
  case SHRQ n d =>
    rw [h.gp d hg]; generalize t.gp (f d) = v
    cases v <;> first | exact .ret (h.setGP _ _) | exact .panic _
  case ADDQ a d =>
    rw [h.gp a hg.1, h.gp d hg.2]; generalize t.gp (f a) = v; generalize t.gp (f d) = w
    cases v <;> cases w <;> first | exact .ret (h.setGP _ _) | exact .panic _
  case VLDDQU disp b d =>
    rw [h.gp b hg]; generalize t.gp (f b) = v
    cases v
    case ptr => exact (Rel2.refl (load16 _)).bind fun v w e => e ▸ .ret (h.setX _ _)
    all_goals exact .panic _
  case VMOVDQU a disp b =>
    rw [h.gp b hg, h.x a hx]; generalize t.gp (f b) = v
    cases v
    case ptr => exact (Rel2.refl _).bind fun _ _ _ => .ret h
    all_goals exact .panic _
  case VPBROADCASTW sym d => exact .load _ fun _ => .load _ fun _ => .ret (h.setX _ _)
  case VBROADCASTSS_arg off d =>
    generalize fr.get off = w
    rcases w with _ | (_ | _ | _ | _) <;> first | exact .ret (h.setX _ _) | exact .panic _
  case VPMOVMSKB a d => rw [h.x a hx]; exact .ret (h.setGP _ _)
  case VPSHUFB b a d =>
    rw [h.gp b hg, h.x a hx]; generalize t.gp (f b) = v
    cases v
    case ptr => exact (Rel2.refl (load16 _)).bind fun v w e => e ▸ .ret (h.setX _ _)
    all_goals exact .panic _
  case VPSLLDQ imm a d => rw [h.x a hx]; exact .ret (h.setX _ _)
  case VPSHUFD imm a d => rw [h.x a hx]; exact .ret (h.setX _ _)
  case VPMINUB b a d => rw [h.x a hx.1, h.x b hx.2]; exact .ret (h.setX _ _)
  case VPACKUSWB b a d => rw [h.x a hx.1, h.x b hx.2]; exact .ret (h.setX _ _)
  case VPMINSW b a d => rw [h.x a hx.1, h.x b hx.2]; exact .ret (h.setX _ _)
  case VPADDUSW b a d => rw [h.x a hx.1, h.x b hx.2]; exact .ret (h.setX _ _)
  case VPALIGNR imm b a d => rw [h.x a hx.1, h.x b hx.2]; exact .ret (h.setX _ _)
  case VPSUBD b a d => rw [h.x a hx.1, h.x b hx.2]; exact .ret (h.setX _ _)
  case VPADDD b a d => rw [h.x a hx.1, h.x b hx.2]; exact .ret (h.setX _ _)

/-- A program. -/
theorem exec_holds {outs : List Nat} (fr : Frame) (is : List (GInstr G X)) (h : Holds f g gs xs rs s t)
    (hd : allocOk f g outs gs xs rs is = true) :
    Rel2 (fun s t => ∀ o ∈ outs, s.res.lookup o = t.res.lookup o) (gexec fr is s)
      (exec fr (is.map (GInstr.on f g)) t) := by
  induction is generalizing gs xs rs s t with
  | nil =>
    simp only [allocOk, List.all_eq_true, List.contains_iff_mem] at hd
    exact .ret fun o ho => h.res o (hd o ho)
  | cons i is ih =>
    simp only [allocOk, Bool.and_eq_true, List.all_eq_true, List.contains_iff_mem] at hd
    exact (step_holds fr i h hd.1.1 hd.1.2).bind fun a b hab => ih hab hd.2

/-- A program with a 16-bit result. -/
theorem gexec_result (f : G → GP) (g : X → XR) (fr : Frame) (is : List (GInstr G X)) (o : Nat)
    (hd : allocOk f g [o] [] [] [] is = true) (s : GSt G X) (t : St) {β : Type} (k : Option U16 → Prog β) :
    (do let s' ← gexec fr is s; k (s'.res.lookup o)) =
      (do let t' ← exec fr (is.map (GInstr.on f g)) t; k (t'.res.lookup o)) :=
  Rel2.eq ((exec_holds fr is (gs := []) (xs := []) (rs := [])
    ⟨(fun _ h => by simp at h), (fun _ h => by simp at h), (fun _ h => by simp at h)⟩ hd).bind
    fun a b h => by rw [h o (by simp)]; exact Rel2.refl _)

/-- A program without a result. -/
theorem gexec_unit (f : G → GP) (g : X → XR) (fr : Frame) (is : List (GInstr G X))
    (hd : allocOk f g [] [] [] [] is = true) (s : GSt G X) (t : St) {β : Type} (k : Prog β) :
    (do let _ ← gexec fr is s; k) = (do let _ ← exec fr (is.map (GInstr.on f g)) t; k) :=
  Rel2.eq ((exec_holds fr is (gs := []) (xs := []) (rs := [])
    ⟨(fun _ h => by simp at h), (fun _ h => by simp at h), (fun _ h => by simp at h)⟩ hd).bind
    fun a b h => Rel2.refl _)

end SVB.Gen
