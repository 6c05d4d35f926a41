import Verif.Proofs.WorkRead

/-! # Work of the readers in terms of the length of the stream

A data section that would start after the end of the stream stops every reader at once. -/

set_option autoImplicit false

namespace SVB
open Asm

/-- A data position outside the stream. -/
def Dead (st : Bytes) (s : RSt) : Prop := s.dataPos < 0 ∨ (st.len : Int) < s.dataPos

section
variable {α : Type} {Q : Nat → α → Prop} {k : Nat}

theorem dead_from {st : Bytes} {i : Int} {f : Bytes → Prog α} (h : i < 0 ∨ (st.len : Int) < i) :
    Bd Q k ((st.from i).bind f) := by
  unfold Slice.from
  rw [if_neg (by omega)]
  exact .panic

theorem dead_loop {σ : Type} {cond : σ → Bool} {body : σ → Prog σ} {s : σ} {c : Nat}
    (h : Bd (fun _ _ => False) c (body s)) (fuel : Nat) :
    Bd (fun l s' => l = c ∧ s' = s ∧ cond s = false) c (loop fuel cond body s) := by
  cases fuel with
  | zero =>
    unfold loop; split
    · exact .panic
    · rename_i hc; exact .ret ⟨rfl, rfl, by simpa using hc⟩
  | succ n =>
    unfold loop; split
    · exact h.bind fun _ _ h => h.elim
    · rename_i hc; exact .ret ⟨rfl, rfl, by simpa using hc⟩
end

variable {st : Bytes} {out : U32s} {s : RSt}

theorem dead_rs16 (h : Dead st s) : Bd (fun _ _ => False) 2 (rsBody16 st out s) := by
  unfold rsBody16
  simp only [Prog.pure_eq, Prog.bind_eq]
  exact dead_from h

theorem dead_rs4 (h : Dead st s) : Bd (fun _ _ => False) 2 (rsBody4 st out s) := by
  unfold rsBody4
  simp only [Prog.pure_eq, Prog.bind_eq]
  exact bd_getB fun _ => dead_from h

theorem dead_rds16 (h : Dead st s) : Bd (fun _ _ => False) 2 (rdsBody16 st out s) := by
  unfold rdsBody16
  simp only [Prog.pure_eq, Prog.bind_eq]
  exact dead_from h

theorem dead_rds4 (h : Dead st s) : Bd (fun _ _ => False) 2 (rdsBody4 st out s) := by
  unfold rdsBody4
  simp only [Prog.pure_eq, Prog.bind_eq]
  exact bd_getB fun _ => dead_from h

theorem dead_rf32 (h : Dead st s) : Bd (fun _ _ => False) 2 (rfBody32 st out s) := by
  unfold rfBody32
  simp only [Prog.pure_eq, Prog.bind_eq]
  exact dead_from h

theorem dead_rf8 (h : Dead st s) : Bd (fun _ _ => False) 2 (rfBody8 st out s) := by
  unfold rfBody8
  simp only [Prog.pure_eq, Prog.bind_eq]
  exact bd_getB (k := 1) fun _ => bd_getB fun _ => dead_from h

theorem dead_rf1 {count : Int} (h : Dead st s) : Bd (fun _ _ => False) 2 (rfBody1 count st out s) := by
  unfold rfBody1
  simp only [Prog.pure_eq, Prog.bind_eq]
  exact dead_from h

theorem dead_rdf32 (h : Dead st s) : Bd (fun _ _ => False) 2 (rdfBody32 st out s) := by
  unfold rdfBody32
  simp only [Prog.pure_eq, Prog.bind_eq]
  exact dead_from h

theorem dead_rdf8 (h : Dead st s) : Bd (fun _ _ => False) 2 (rdfBody8 st out s) := by
  unfold rdfBody8
  simp only [Prog.pure_eq, Prog.bind_eq]
  exact bd_getB (k := 1) fun _ => bd_getB fun _ => dead_from h

theorem dead_rdf1 {count : Int} (h : Dead st s) : Bd (fun _ _ => False) 2 (rdfBody1 count st out s) := by
  unfold rdfBody1
  simp only [Prog.pure_eq, Prog.bind_eq]
  exact dead_from h

theorem dead_readAllScalar {count : Int} (h : hdr count < 0 ∨ (st.len : Int) < hdr count) :
    Bd (fun _ _ => True) 2 (readAllScalar count st out) := by
  unfold readAllScalar
  simp only [Prog.pure_eq, Prog.bind_eq]
  have hd : Dead st ⟨0, hdr count, 0, 0⟩ := h
  refine (dead_loop (dead_rs16 hd) _).bind ?_
  rintro _ _ ⟨rfl, rfl, -⟩
  refine (dead_loop (dead_rs4 hd) _).bind ?_
  rintro _ _ ⟨rfl, rfl, -⟩
  split
  · exact dead_from h
  · exact bd_ret

theorem dead_readAllDeltaScalar {count : Int} (prev : U32) (h : hdr count < 0 ∨ (st.len : Int) < hdr count) :
    Bd (fun _ _ => True) 2 (readAllDeltaScalar count st out prev) := by
  unfold readAllDeltaScalar
  simp only [Prog.pure_eq, Prog.bind_eq]
  have hd : Dead st ⟨0, hdr count, 0, prev⟩ := h
  refine (dead_loop (dead_rds16 hd) _).bind ?_
  rintro _ _ ⟨rfl, rfl, -⟩
  refine (dead_loop (dead_rds4 hd) _).bind ?_
  rintro _ _ ⟨rfl, rfl, -⟩
  split
  · exact dead_from h
  · exact bd_ret

theorem dead_readAllFast {count : Int} (h : hdr count < 0 ∨ (st.len : Int) < hdr count) :
    Bd (fun _ _ => True) 2 (readAllFast count st out) := by
  unfold readAllFast
  simp only [Prog.pure_eq, Prog.bind_eq]
  have hd : Dead st ⟨0, hdr count, 0, 0⟩ := h
  refine (dead_loop (dead_rf32 hd) _).bind ?_
  rintro _ _ ⟨rfl, rfl, -⟩
  refine (dead_loop (dead_rf8 hd) _).bind ?_
  rintro _ _ ⟨rfl, rfl, -⟩
  refine (dead_loop (dead_rf1 hd) _).bind ?_
  rintro _ _ ⟨rfl, rfl, -⟩
  exact bd_ret

theorem dead_readAllDeltaFast {count : Int} (prev : U32) (h : hdr count < 0 ∨ (st.len : Int) < hdr count) :
    Bd (fun _ _ => True) 2 (readAllDeltaFast count st out prev) := by
  unfold readAllDeltaFast
  simp only [Prog.pure_eq, Prog.bind_eq]
  have hd : Dead st ⟨0, hdr count, 0, prev⟩ := h
  refine (dead_loop (dead_rdf32 hd) _).bind ?_
  rintro _ _ ⟨rfl, rfl, -⟩
  refine (dead_loop (dead_rdf8 hd) _).bind ?_
  rintro _ _ ⟨rfl, rfl, -⟩
  refine (dead_loop (dead_rdf1 hd) _).bind ?_
  rintro _ _ ⟨rfl, rfl, -⟩
  exact bd_ret

/-- Either the control section fits into the stream, or the data section starts outside. -/
theorem hdr_fits {count : Int} (h1 : -2 ^ 63 ≤ count) (h2 : count < 2 ^ 63) (n : Nat) :
    (count.toNat + 3) / 4 ≤ n ∨ (hdr count < 0 ∨ (n : Int) < hdr count) := by
  by_cases hc : count < 2 ^ 63 - 3
  · have hv := hdr_val h1 hc
    split at hv <;> omega
  · exact .inr (.inl (hdr_ovf (by omega) h2))

end SVB
