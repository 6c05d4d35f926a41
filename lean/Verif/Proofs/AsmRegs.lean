import Verif.Model.Asm

/-! # Registers are defined before they are used

Two runs of a straight-line routine that start with different register contents (also different contents of
the lanes a vector register does not have) perform the same accesses and end with the same result, provided
every register is written before it is read.  That condition is a syntactic check of the routine's text. -/

set_option autoImplicit false

namespace SVB.Asm

/-- General purpose registers an instruction reads. -/
def Instr.readsG : Instr → List GP
  | .MOVQ a _ | .MOVWQZX a _ | .MOVBQZX a _ | .MOVBQZX_mem a _ | .MOVW_ret a _ => [a]
  | .SHLQ _ d | .SHRQ _ d => [d]
  | .ADDQ a d => [a, d]
  | .VLDDQU _ b _ | .VMOVDQU _ _ b | .VPSHUFB b _ _ => [b]
  | _ => []

/-- Vector registers an instruction reads. -/
def Instr.readsX : Instr → List XR
  | .VMOVDQU a _ _ | .VPMOVMSKB a _ | .VPSHUFB _ a _ | .VPSLLDQ _ a _ | .VPSHUFD _ a _ => [a]
  | .VPMINUB b a _ | .VPACKUSWB b a _ | .VPMINSW b a _ | .VPADDUSW b a _ | .VPALIGNR _ b a _ | .VPSUBD b a _
  | .VPADDD b a _ => [a, b]
  | _ => []

/-- General purpose register an instruction writes. -/
def Instr.writesG : Instr → List GP
  | .MOVQ_arg _ d | .MOVQ _ d | .MOVWQZX_arg _ d | .MOVWQZX _ d | .MOVBQZX _ d | .MOVBQZX_mem _ d | .SHLQ _ d
  | .SHRQ _ d | .ADDQ _ d | .VPMOVMSKB _ d => [d]
  | _ => []

/-- Vector register an instruction writes. -/
def Instr.writesX : Instr → List XR
  | .VLDDQU _ _ d | .VPBROADCASTW _ d | .VBROADCASTSS_arg _ d | .VPMINUB _ _ d | .VPACKUSWB _ _ d
  | .VPMINSW _ _ d | .VPADDUSW _ _ d | .VPSHUFB _ _ d | .VPALIGNR _ _ _ d | .VPSUBD _ _ d | .VPADDD _ _ d
  | .VPSLLDQ _ _ d | .VPSHUFD _ _ d => [d]
  | _ => []

/-- Result slot an instruction writes. -/
def Instr.writesR : Instr → List Nat
  | .MOVW_ret _ off => [off]
  | _ => []

/-- Every register read is in `gs`/`xs` or was written before, and at the end the result slots `outs` are in
`rs` or were written. -/
def defined (outs : List Nat) : List GP → List XR → List Nat → List Instr → Bool
  | _, _, rs, [] => outs.all (rs.contains ·)
  | gs, xs, rs, i :: is =>
    i.readsG.all (gs.contains ·) && i.readsX.all (xs.contains ·) &&
      defined outs (i.writesG ++ gs) (i.writesX ++ xs) (i.writesR ++ rs) is

/-- States that agree on the registers in `gs`, on lanes 0..15 of those in `xs`, and on the result slots in
`rs`. -/
structure Agree (gs : List GP) (xs : List XR) (rs : List Nat) (s t : St) : Prop where
  gp : ∀ r ∈ gs, s.gp r = t.gp r
  x : ∀ r ∈ xs, ∀ i < 16, s.x r i = t.x r i
  res : ∀ o ∈ rs, s.res.lookup o = t.res.lookup o

/-- The same accesses, and related results. -/
inductive Rel {α : Type} (R : α → α → Prop) : Prog α → Prog α → Prop where
  | ret {a b : α} : R a b → Rel R (.ret a) (.ret b)
  | panic (k : Panic) : Rel R (.panic k) (.panic k)
  | load (p : Ptr) {k l : Byte → Prog α} : (∀ b, Rel R (k b) (l b)) → Rel R (.load p k) (.load p l)
  | store (p : Ptr) (v : Byte) {k l : Prog α} : Rel R k l → Rel R (.store p v k) (.store p v l)

theorem Rel.bind {α β : Type} {R : α → α → Prop} {S : β → β → Prop} {p q : Prog α} {f g : α → Prog β}
    (h : Rel R p q) (hf : ∀ a b, R a b → Rel S (f a) (g b)) : Rel S (p.bind f) (q.bind g) := by
  induction h with
  | ret h => exact hf _ _ h
  | panic k => exact .panic k
  | load p _ ih => exact .load p ih
  | store p v _ ih => exact .store p v ih

theorem Rel.refl {α : Type} {R : α → α → Prop} (hR : ∀ a, R a a) (p : Prog α) : Rel R p p := by
  induction p with
  | ret a => exact .ret (hR a)
  | panic k => exact .panic k
  | load p k ih => exact .load p ih
  | store p v k ih => exact .store p v ih

theorem Rel.eq {α : Type} {p q : Prog α} (h : Rel (· = ·) p q) : p = q := by
  induction h with
  | ret h => rw [h]
  | panic k => rfl
  | load p _ ih => congr; funext b; exact ih b
  | store p v _ ih => rw [ih]

variable {gs : List GP} {xs : List XR} {rs : List Nat} {s t : St}

theorem Agree.setGP (h : Agree gs xs rs s t) (r : GP) (v : Val) :
    Agree (r :: gs) xs rs (s.setGP r v) (t.setGP r v) where
  gp q hq := by
    simp only [St.setGP]
    split
    · rfl
    · rename_i hne
      exact h.gp q ((List.mem_cons.1 hq).resolve_left hne)
  x := h.x
  res := h.res

theorem Agree.setX (h : Agree gs xs rs s t) (r : XR) {v w : Vec} (hv : ∀ i < 16, v i = w i) :
    Agree gs (r :: xs) rs (s.setX r v) (t.setX r w) where
  gp := h.gp
  x q hq i hi := by
    simp only [St.setX]
    split
    · exact hv i hi
    · rename_i hne
      exact h.x q ((List.mem_cons.1 hq).resolve_left hne) i hi
  res := h.res

theorem lane16_congr {v w : Vec} (h : ∀ i < 16, v i = w i) {i : Nat} (hi : i < 8) : lane16 v i = lane16 w i := by
  unfold lane16; rw [h _ (by omega), h _ (by omega)]

theorem lane32_congr {v w : Vec} (h : ∀ i < 16, v i = w i) {i : Nat} (hi : i < 4) : lane32 v i = lane32 w i := by
  unfold lane32; rw [h _ (by omega), h _ (by omega), h _ (by omega), h _ (by omega)]

theorem of16_congr {f g : Nat → U16} (h : ∀ i < 8, f i = g i) : ∀ i < 16, of16 f i = of16 g i := by
  intro i hi; unfold of16; rw [h _ (by omega)]

theorem of32_congr {f g : Nat → U32} (h : ∀ i < 4, f i = g i) : ∀ i < 16, of32 f i = of32 g i := by
  intro i hi; unfold of32; rw [h _ (by omega)]

theorem movmsk_congr {v w : Vec} (h : ∀ i < 16, v i = w i) : movmsk v = movmsk w := by
  unfold movmsk
  have : ∀ (l : List Nat) (a : Nat), (∀ i ∈ l, i < 16) →
      l.foldl (fun acc i => acc + (if (v i).msb then 2 ^ i else 0)) a =
        l.foldl (fun acc i => acc + (if (w i).msb then 2 ^ i else 0)) a := by
    intro l
    induction l with
    | nil => intros; rfl
    | cons i l ih =>
      intro a hl
      simp only [List.foldl_cons]
      rw [h i (hl i (by simp)), ih _ fun j hj => hl j (List.mem_cons_of_mem _ hj)]
  exact this _ _ fun i hi => List.mem_range.1 hi

theorem storeN_congr {v w : Vec} (p : Ptr) (n : Nat) : ∀ i, i + n ≤ 16 → (∀ i < 16, v i = w i) →
    storeN p v i n = storeN p w i n := by
  induction n with
  | zero => intro i _ _; rfl
  | succ n ih =>
    intro i hi h
    simp only [storeN]
    rw [h i (by omega), ih (i + 1) (by omega) h]

/-- One instruction. -/
theorem step_agree (fr : Frame) (i : Instr) (h : Agree gs xs rs s t) (hg : ∀ r ∈ i.readsG, r ∈ gs)
    (hx : ∀ r ∈ i.readsX, r ∈ xs) :
    Rel (Agree (i.writesG ++ gs) (i.writesX ++ xs) (i.writesR ++ rs)) (step fr s i) (step fr t i) := by
  cases i <;> simp only [Instr.readsG, Instr.readsX, List.mem_cons, List.not_mem_nil, or_false,
    forall_eq, forall_eq_or_imp] at hg hx <;>
    simp only [step, Instr.writesG, Instr.writesX, Instr.writesR, List.cons_append, List.nil_append, Prog.pure_eq, Prog.bind_eq]
  case MOVQ_arg off d =>
    split <;> first | exact .ret (h.setGP _ _) | exact .panic _
  case MOVQ a d => rw [h.gp a hg]; exact .ret (h.setGP _ _)
  case MOVWQZX_arg off d => split <;> first | exact .ret (h.setGP _ _) | exact .panic _
  case MOVWQZX a d => rw [h.gp a hg]; split <;> first | exact .ret (h.setGP _ _) | exact .panic _
  case MOVBQZX a d => rw [h.gp a hg]; split <;> first | exact .ret (h.setGP _ _) | exact .panic _
  case MOVBQZX_mem a d =>
    rw [h.gp a hg]; split
    · exact .load _ fun b => .ret (h.setGP _ _)
    · exact .panic _
  case MOVW_ret a off =>
    rw [h.gp a hg]; split
    · refine .ret ⟨h.gp, h.x, fun o ho => ?_⟩
      rcases List.mem_cons.1 ho with rfl | ho
      · simp [List.lookup]
      · simp only [List.lookup]
        split
        · rfl
        · exact h.res o ho
    · exact .panic _
  case SHLQ n d => rw [h.gp d hg]; split <;> first | exact .ret (h.setGP _ _) | exact .panic _
  case SHRQ n d => rw [h.gp d hg]; split <;> first | exact .ret (h.setGP _ _) | exact .panic _
  case ADDQ a d =>
    rw [h.gp a hg.1, h.gp d hg.2]; split <;> first | exact .ret (h.setGP _ _) | exact .panic _
  case VLDDQU disp b d =>
    rw [h.gp b hg]; split
    · exact (Rel.refl (fun _ => rfl) (load16 _)).bind fun v w e => .ret (h.setX _ fun _ _ => by rw [e])
    · exact .panic _
  case VMOVDQU a disp b =>
    rw [h.gp b hg]; split
    · rename_i p _
      rw [store16, store16, storeN_congr _ _ _ (by omega) (h.x a hx)]
      exact (Rel.refl (fun _ => rfl) _).bind fun _ _ _ => .ret h
    · exact .panic _
  case VPBROADCASTW sym d =>
    exact (Rel.refl (fun _ => rfl) (load8 _)).bind fun v w e => e ▸
      (Rel.refl (fun _ => rfl) (load8 _)).bind fun v' w' e' => .ret (h.setX _ fun _ _ => by rw [e'])
  case VBROADCASTSS_arg off d =>
    split
    · exact .ret (h.setX _ fun _ _ => rfl)
    · exact .panic _
  case VPMINUB b a d => exact .ret (h.setX _ fun i hi => by rw [h.x a hx.1 i hi, h.x b hx.2 i hi])
  case VPACKUSWB b a d =>
    refine .ret (h.setX _ fun i hi => ?_)
    split
    · rw [lane16_congr (h.x a hx.1) (by omega)]
    · rw [lane16_congr (h.x b hx.2) (by omega)]
  case VPMINSW b a d =>
    exact .ret (h.setX _ (of16_congr fun i hi => by
      rw [lane16_congr (h.x a hx.1) hi, lane16_congr (h.x b hx.2) hi]))
  case VPADDUSW b a d =>
    exact .ret (h.setX _ (of16_congr fun i hi => by
      rw [lane16_congr (h.x a hx.1) hi, lane16_congr (h.x b hx.2) hi]))
  case VPMOVMSKB a d => rw [movmsk_congr (h.x a hx)]; exact .ret (h.setGP _ _)
  case VPSHUFB b a d =>
    rw [h.gp b hg]; split
    · refine (Rel.refl (fun _ => rfl) (load16 _)).bind fun v w e => .ret (h.setX _ fun i hi => ?_)
      subst e
      unfold pshufb
      rw [h.x a hx _ (Nat.mod_lt _ (by decide))]
    · exact .panic _
  case VPALIGNR imm b a d =>
    refine .ret (h.setX _ fun i hi => ?_)
    unfold palignr
    split
    · exact h.x b hx.2 _ (by omega)
    · split
      · exact h.x a hx.1 _ (by omega)
      · rfl
  case VPSUBD b a d =>
    exact .ret (h.setX _ (of32_congr fun i hi => by
      rw [lane32_congr (h.x a hx.1) hi, lane32_congr (h.x b hx.2) hi]))
  case VPADDD b a d =>
    exact .ret (h.setX _ (of32_congr fun i hi => by
      rw [lane32_congr (h.x a hx.1) hi, lane32_congr (h.x b hx.2) hi]))
  case VPSLLDQ imm a d =>
    refine .ret (h.setX _ fun i hi => ?_)
    unfold pslldq
    split
    · rfl
    · exact h.x a hx _ (by omega)
  case VPSHUFD imm a d =>
    exact .ret (h.setX _ (of32_congr fun i hi => lane32_congr (h.x a hx) (Nat.mod_lt _ (by decide))))

/-- A routine. -/
theorem exec_agree {outs : List Nat} (fr : Frame) (is : List Instr) (h : Agree gs xs rs s t)
    (hd : defined outs gs xs rs is = true) :
    Rel (fun s t => ∀ o ∈ outs, s.res.lookup o = t.res.lookup o) (exec fr is s) (exec fr is t) := by
  induction is generalizing gs xs rs s t with
  | nil =>
    simp only [defined, List.all_eq_true, List.contains_iff_mem] at hd
    exact .ret fun o ho => h.res o (hd o ho)
  | cons i is ih =>
    simp only [defined, Bool.and_eq_true, List.all_eq_true, List.contains_iff_mem] at hd
    exact (step_agree fr i h hd.1.1 hd.1.2).bind fun a b hab => ih hab hd.2

/-- A routine with a 16-bit result slot: the value read from the slot does not depend on the entry state. -/
theorem exec_result (fr : Frame) (is : List Instr) (o : Nat) (hd : defined [o] [] [] [] is = true) (s t : St)
    {β : Type} (f : Option U16 → Prog β) :
    (do let s' ← exec fr is s; f (s'.res.lookup o)) = (do let t' ← exec fr is t; f (t'.res.lookup o)) :=
  Rel.eq ((exec_agree fr is (gs := []) (xs := []) (rs := [])
    ⟨(fun _ h => by simp at h), (fun _ h => by simp at h), (fun _ h => by simp at h)⟩ hd).bind
    fun a b h => by rw [h o (by simp)]; exact Rel.refl (fun _ => rfl) _)

/-- A routine without a result. -/
theorem exec_unit (fr : Frame) (is : List Instr) (hd : defined [] [] [] [] is = true) (s t : St)
    {β : Type} (f : Prog β) :
    (do let _ ← exec fr is s; f) = (do let _ ← exec fr is t; f) :=
  Rel.eq ((exec_agree fr is (gs := []) (xs := []) (rs := [])
    ⟨(fun _ h => by simp at h), (fun _ h => by simp at h), (fun _ h => by simp at h)⟩ hd).bind
    fun a b h => Rel.refl (fun _ => rfl) _)

end SVB.Asm
