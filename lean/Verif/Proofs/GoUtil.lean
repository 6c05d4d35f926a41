import Verif.Proofs.GoReader

/-! # The functions of `/repo/pkg/util/varint.go` and `util.go`, interpreted, are those of the model -/

set_option autoImplicit false
set_option linter.unusedSimpArgs false

namespace SVB.Go
open Prog

theorem leaves_setW (s : U32s) (i : Int) (v : U32) : (setW s i v).Leaves fun _ => 0 ≤ i ∧ i < s.len := by
  unfold setW
  split
  · next h => exact ((leaves_true _).mono fun _ _ => h)
  · trivial

/-- A loop over the indices of a slice that does what the loop of the model does. -/
theorem range_step {σ β : Type} (enc : σ → Env) (idx : σ → Int) (Inv : σ → Prop) {C : Ctx} {x : Nat} {gbody : List Stmt}
    {n : Nat} {cond : σ → Bool} {body : σ → Prog σ} {fuel : Nat} {env : Env} {s : σ} {K : Flow → Prog β} {K' : σ → Prog β}
    (he : env = enc s) (hs : Inv s) (h0 : idx s = 0) (hf : n ≤ fuel)
    (hc : ∀ s, Inv s → cond s = decide (idx s < n))
    (hb : ∀ s, Inv s → 0 ≤ idx s → idx s < n → ∀ (K : Flow → Prog β) (K' : σ → Prog β),
      (∀ s', Inv s' → idx s' = idx s + 1 → K (.next (enc s')) = K' s') →
      ((execs C gbody ((x, .int (idx s)) :: enc s)).bind fun f =>
        (f.andThen fun e => .ret (.next (Env.leave e (enc s).length))).bind K) = (body s).bind K')
    (hk : ∀ s, Inv s → idx s = n → K (.next (enc s)) = K' s) :
    (execRange C x gbody n env).bind K = (loop fuel cond body s).bind K' := by
  subst he
  unfold execRange
  suffices h : ∀ (r i fuel : Nat) (s : σ), Inv s → idx s = i → i + r = n → r ≤ fuel →
      (rangeLoop x (execs C gbody) r i (enc s)).bind K = (loop fuel cond body s).bind K' from
    h n 0 fuel s hs h0 (by omega) hf
  intro r
  induction r with
  | zero =>
    intro i fuel s hs hi hn _
    have hcs : cond s = false := by rw [hc s hs]; exact decide_eq_false (by omega)
    unfold rangeLoop
    cases fuel <;> unfold loop <;> simp only [hcs, ret_bind, Bool.false_eq_true, if_false, pure_eq] <;>
      exact hk s hs (by omega)
  | succ r ih =>
    intro i fuel s hs hi hn hf
    obtain ⟨k, rfl⟩ : ∃ k, fuel = k + 1 := ⟨fuel - 1, by omega⟩
    have hcs : cond s = true := by rw [hc s hs]; exact decide_eq_true (by omega)
    unfold rangeLoop loop
    simp only [hcs, if_true, bind_eq, Prog.bind_assoc]
    have := hb s hs (by omega) (by omega) (fun f => (f.andThen fun e => rangeLoop x (execs C gbody) r (i + 1) e).bind K)
      (fun s' => (loop k cond body s').bind K')
      (fun s' h' hi' => by simpa only [andThen_next] using ih (i + 1) k s' h' (by omega) (by omega) (by omega))
    rw [← this, hi]
    refine congrArg _ (funext fun f => ?_)
    cases f <;> simp only [andThen_next, andThen_ret, ret_bind]

variable (W : World) (hW : W.prog = filesFor W.cpu)
include hW

theorem call_PutUvarint (d : Nat) (b : Bytes) (x : U64) :
    W.call (d + 1) n!"binary" n!"PutUvarint" [.bytes b, .u64 x] = (putUvarint b x).bind fun r => .ret [.int r] := by
  rw [call_external W d _ _ _ (.inl (by rw [hW, none_binary_PutUvarint]))]
  rfl

theorem call_Uvarint (d : Nat) (b : Bytes) :
    W.call (d + 1) n!"binary" n!"Uvarint" [.bytes b] = (uvarint b).bind fun r => .ret [.u64 r.1, .int r.2] := by
  rw [call_external W d _ _ _ (.inl (by rw [hW, none_binary_Uvarint]))]
  rfl

theorem call_PutVarint (d : Nat) (nums : U32s) (out : Bytes) :
    W.call (d + 2) n!"util" n!"PutVarint" [.words nums, .bytes out] = (putVarint nums out).bind fun r => .ret [.int r] := by
  rw [call_go W (d + 1) _ _ _ Files.vint_PutVarint _ (by rw [hW, func_util_PutVarint]) rfl]
  unfold Files.vint_PutVarint putVarint
  rw [hW]
  simp only [bind_eq, pure_eq]
  go_lhs
  go_stmt
  go_stmt
  rw [Prog.bind_assoc]
  refine range_step (fun s : Int × Int => [(n!"pos", .int s.2), (n!"nums", .words nums), (n!"out", .bytes out)]) (·.1)
    (fun _ => True) rfl trivial rfl (Nat.le_refl _) (fun _ _ => rfl) ?_ ?_
  · intro s _ h0 h1 K K' h
    iterate 2 go_stmt [call_PutUvarint W hW]
    go_lhs
    refine Eq.trans ?_ (h _ trivial ?_) <;> rfl
  · intro s _ _
    go_lhs
    go_stmt
    rfl

theorem call_PutDeltaVarint (d : Nat) (nums : U32s) (out : Bytes) (prev : U32) :
    W.call (d + 2) n!"util" n!"PutDeltaVarint" [.words nums, .bytes out, .u32 prev] =
      (putDeltaVarint nums out prev).bind fun r => .ret [.int r] := by
  rw [call_go W (d + 1) _ _ _ Files.vint_PutDeltaVarint _ (by rw [hW, func_util_PutDeltaVarint]) rfl]
  unfold Files.vint_PutDeltaVarint putDeltaVarint
  rw [hW]
  simp only [bind_eq, pure_eq]
  go_lhs
  go_stmt
  go_stmt
  rw [Prog.bind_assoc]
  refine range_step (fun s : Int × Int × U32 =>
    [(n!"pos", .int s.2.1), (n!"nums", .words nums), (n!"out", .bytes out), (n!"prev", .u32 s.2.2)]) (·.1)
    (fun _ => True) rfl trivial rfl (Nat.le_refl _) (fun _ _ => rfl) ?_ ?_
  · intro s _ h0 h1 K K' h
    iterate 3 go_stmt [call_PutUvarint W hW]
    go_lhs
    refine Eq.trans ?_ (h _ trivial ?_) <;> rfl
  · intro s _ _
    go_lhs
    go_stmt
    rfl

theorem call_GetVarint (d : Nat) (data : Bytes) (out : U32s) (ho : out.len < 2 ^ 60) (hf : out.len < W.fuel) :
    W.call (d + 2) n!"util" n!"GetVarint" [.bytes data, .words out] = (getVarint data out).bind fun r => .ret [.int r] := by
  rw [call_go W (d + 1) _ _ _ Files.vint_GetVarint _ (by rw [hW, func_util_GetVarint]) rfl]
  unfold Files.vint_GetVarint getVarint
  rw [hW]
  simp only [bind_eq, pure_eq]
  go_lhs
  iterate 3 go_stmt
  rw [Prog.bind_assoc]
  refine for_step (fun s : Int × Int =>
    [(n!"i", .int s.2), (n!"pos", .int s.1), (n!"data", .bytes data), (n!"out", .words out)])
    (fun s => 0 ≤ s.2 ∧ s.2 ≤ out.len) (fun s => (out.len + 1 - s.2).toNat) rfl ?_ ?_ ?_ ?_ ?_ ?_ ?_
  · simp
  · simp; omega
  · simp
  · intro s hs; go_lhs
  · intro s hs hc; omega
  · intro s hs hc K K' h
    have hc := of_decide_eq_true hc
    go_lhs
    iterate 2 go_stmt [call_Uvarint W hW]
    rw [execs_cons]
    go_lhs
    rw [Prog.bind_assoc]
    refine bind_congr' (leaves_setW _ _ _) fun _ hw => ?_
    go_stmt
    refine Eq.trans ?_ (h _ ?_ ?_)
    · rfl
    · simp; omega
    · simp; omega
  · intro s hs hc
    go_lhs
    go_stmt
    rfl

theorem call_GetDeltaVarint (d : Nat) (data : Bytes) (out : U32s) (prev : U32) (ho : out.len < 2 ^ 60)
    (hf : out.len < W.fuel) :
    W.call (d + 2) n!"util" n!"GetDeltaVarint" [.bytes data, .words out, .u32 prev] =
      (getDeltaVarint data out prev).bind fun r => .ret [.int r] := by
  rw [call_go W (d + 1) _ _ _ Files.vint_GetDeltaVarint _ (by rw [hW, func_util_GetDeltaVarint]) rfl]
  unfold Files.vint_GetDeltaVarint getDeltaVarint
  rw [hW]
  simp only [bind_eq, pure_eq]
  go_lhs
  iterate 3 go_stmt
  rw [Prog.bind_assoc]
  refine for_step (fun s : Int × Int × U32 =>
    [(n!"i", .int s.2.1), (n!"pos", .int s.1), (n!"in", .bytes data), (n!"out", .words out), (n!"prev", .u32 s.2.2)])
    (fun s => 0 ≤ s.2.1 ∧ s.2.1 ≤ out.len) (fun s => (out.len + 1 - s.2.1).toNat) rfl ?_ ?_ ?_ ?_ ?_ ?_ ?_
  · simp
  · simp; omega
  · simp
  · intro s hs; go_lhs
  · intro s hs hc; omega
  · intro s hs hc K K' h
    have hc := of_decide_eq_true hc
    go_lhs
    iterate 3 go_stmt [call_Uvarint W hW]
    rw [execs_cons]
    go_lhs
    rw [Prog.bind_assoc]
    refine bind_congr' (leaves_setW _ _ _) fun _ hw => ?_
    iterate 2 go_stmt
    refine Eq.trans ?_ (h _ ?_ ?_)
    · rfl
    · simp; omega
    · simp; omega
  · intro s hs hc
    go_lhs
    go_stmt
    rfl

theorem call_Delta (d : Nat) (inn out : U32s) (hn : inn.len < 2 ^ 60) :
    W.call (d + 1) n!"util" n!"Delta" [.words inn, .words out] = (utilDelta inn out).bind fun _ => .ret [] := by
  rw [call_go W d _ _ _ Files.util_Delta _ (by rw [hW, func_util_Delta]) rfl]
  unfold Files.util_Delta utilDelta
  rw [hW]
  simp only [bind_eq, pure_eq]
  go_lhs
  go_stmt
  rw [Prog.bind_assoc]
  refine range_step (fun s : Int => [(n!"in", .words inn), (n!"out", .words out)]) (fun s => s)
    (fun _ => True) rfl trivial rfl (Nat.le_refl _) (fun _ _ => rfl) ?_ ?_
  · intro s _ h0 h1 K K' h
    rw [execs_cons]
    go_lhs
    by_cases hs : s > 0
    all_goals
      simp only [hs, if_true, if_false]
      go_stmt
      go_lhs
      exact h _ trivial rfl
  · intro s _ _
    go_lhs
    rfl

end SVB.Go
