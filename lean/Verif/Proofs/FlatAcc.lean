import Verif.Model.FlatAcc
import Verif.Proofs.FlatRun

/-! # Memory accesses on flat memory -/

set_option autoImplicit false

namespace SVB.Flat
open Asm Spec

variable {L : Layout} {stk : Addr → Prop} {fr : Frame} {ro rs : Nat} {s : St} {m : Mem} {t : Mach}

/-! ## Traces of the model -/

/-- The trace of what comes after an outcome. -/
def thenTrace {α β : Type} (f : α → Prog β) : Outcome α × Mem → List Event
  | (.ok a, m) => trace (f a) m
  | (.panic _, _) => []

theorem trace_bind {α β : Type} (p : Prog α) (f : α → Prog β) (m : Mem) :
    trace (p.bind f) m = trace p m ++ thenTrace f (run p m) := by
  induction p generalizing m with
  | ret a => rfl
  | panic k => rfl
  | load p k ih => simp only [Prog.bind, trace, run, ih, List.cons_append]
  | store p v k ih => simp only [Prog.bind, trace, run, ih, List.cons_append]

theorem thenTrace_nil {α β : Type} {f : α → Prog β} (hf : ∀ v m', trace (f v) m' = []) (r : Outcome α × Mem) :
    thenTrace f r = [] := by
  obtain ⟨o, m'⟩ := r
  cases o with
  | ok a => exact hf a m'
  | panic k => rfl

theorem trace_loadN : ∀ (n : Nat) (p : Ptr) (m : Mem), trace (loadN p n) m = (List.range n).map fun k => .rd (p.add k)
  | 0, _, _ => rfl
  | n + 1, p, m => by
    have e : ∀ k, (p.add 1).add k = p.add (k + 1) := fun k => by simp only [Ptr.add]; congr 1; omega
    show Event.rd p :: trace ((loadN (p.add 1) n).bind fun bs => .ret (m p :: bs)) m = _
    rw [trace_bind, trace_loadN n, thenTrace_nil fun _ _ => rfl, List.append_nil, List.range_succ_eq_map, List.map_cons, List.map_map]
    refine congrArg (_ :: ·) (List.map_congr_left fun k _ => ?_)
    rw [e]; rfl

theorem trace_load16 {β : Type} (p : Ptr) (f : Vec → Prog β) (m : Mem) (hf : ∀ v m', trace (f v) m' = []) :
    trace ((load16 p).bind f) m = (List.range 16).map fun k => .rd (p.add k) := by
  rw [trace_bind, show load16 p = (loadN p 16).bind fun bs => .ret fun i => bs.getD i 0 from rfl, trace_bind, trace_loadN,
    thenTrace_nil fun _ _ => rfl, thenTrace_nil hf, List.append_nil, List.append_nil]

theorem trace_storeN (p : Ptr) (v : Vec) : ∀ (n i : Nat) (m : Mem),
    trace (storeN p v i n) m = (List.range n).map fun k => .wr (p.add (i + k))
  | 0, _, _ => rfl
  | n + 1, i, m => by
    show Event.wr (p.add i) :: trace (storeN p v (i + 1) n) _ = _
    rw [trace_storeN p v n (i + 1), List.range_succ_eq_map, List.map_cons, List.map_map]
    refine congrArg (_ :: ·) (List.map_congr_left fun k _ => ?_)
    simp only [Function.comp]
    rw [show i + 1 + k = i + k.succ by omega]

/-! ## Instructions -/

/-- An event of the model, as an access. -/
def Layout.acc (L : Layout) : Event → Acc
  | .rd q => .rd (L.addr q)
  | .wr q => .wr (L.addr q)

/-- Accesses to arguments and result. -/
def OnFrame (ro rs : Nat) (fp : Addr) : Acc → Prop
  | .rd a => ∃ k < ro + rs, a = fp + BitVec.ofNat 64 k
  | .wr a => ∃ k < ro + rs, a = fp + BitVec.ofNat 64 k

theorem mem_rdN {a : Addr} {n : Nat} {x : Acc} : x ∈ rdN a n ↔ ∃ k < n, .rd (a + BitVec.ofNat 64 k) = x := by
  simp only [rdN, List.mem_map, List.mem_range]
theorem mem_wrN {a : Addr} {n : Nat} {x : Acc} : x ∈ wrN a n ↔ ∃ k < n, .wr (a + BitVec.ofNat 64 k) = x := by
  simp only [wrN, List.mem_map, List.mem_range]

/-- The accesses of an instruction are those of the model, and the ones to the arguments. -/
def Same (L : Layout) (ro rs : Nat) (fp : Addr) (xs : List Acc) (es : List Event) : Prop :=
  (∀ x ∈ xs, OnFrame ro rs fp x ∨ ∃ e ∈ es, L.acc e = x) ∧ ∀ e ∈ es, L.acc e ∈ xs

theorem same_nil {fp : Addr} : Same L ro rs fp [] [] := ⟨fun _ h => by simp at h, fun _ h => by simp at h⟩

theorem same_arg {fp : Addr} {off n : Nat} (h : off + n ≤ ro + rs) : Same L ro rs fp (rdN (fp + BitVec.ofNat 64 off) n) [] :=
  ⟨fun x hx => by
    obtain ⟨k, hk, rfl⟩ := mem_rdN.1 hx
    exact .inl ⟨off + k, by omega, add_assoc64 ..⟩, fun _ h => by simp at h⟩

theorem same_ret {fp : Addr} {off n : Nat} (h : off + n ≤ ro + rs) : Same L ro rs fp (wrN (fp + BitVec.ofNat 64 off) n) [] :=
  ⟨fun x hx => by
    obtain ⟨k, hk, rfl⟩ := mem_wrN.1 hx
    exact .inl ⟨off + k, by omega, add_assoc64 ..⟩, fun _ h => by simp at h⟩

theorem same_rd {fp a : Addr} {p : Ptr} (ha : a = L.addr p) (n : Nat) :
    Same L ro rs fp (rdN a n) ((List.range n).map fun k => .rd (p.add k)) :=
  ⟨fun x hx => by
    obtain ⟨k, hk, rfl⟩ := mem_rdN.1 hx
    exact .inr ⟨_, List.mem_map.2 ⟨k, List.mem_range.2 hk, rfl⟩, by rw [ha, ← addr_add]; rfl⟩, fun e he => by
    obtain ⟨k, hk, rfl⟩ := List.mem_map.1 he
    exact mem_rdN.2 ⟨k, List.mem_range.1 hk, by rw [ha, ← addr_add]; rfl⟩⟩

theorem same_wr {fp a : Addr} {p : Ptr} (ha : a = L.addr p) (n : Nat) :
    Same L ro rs fp (wrN a n) ((List.range n).map fun k => .wr (p.add k)) :=
  ⟨fun x hx => by
    obtain ⟨k, hk, rfl⟩ := mem_wrN.1 hx
    exact .inr ⟨_, List.mem_map.2 ⟨k, List.mem_range.2 hk, rfl⟩, by rw [ha, ← addr_add]; rfl⟩, fun e he => by
    obtain ⟨k, hk, rfl⟩ := List.mem_map.1 he
    exact mem_wrN.2 ⟨k, List.mem_range.1 hk, by rw [ha, ← addr_add]; rfl⟩⟩

theorem Same.append {fp : Addr} {xs ys : List Acc} {es fs : List Event} (h : Same L ro rs fp xs es) (h' : Same L ro rs fp ys fs) :
    Same L ro rs fp (xs ++ ys) (es ++ fs) :=
  ⟨fun x hx => (List.mem_append.1 hx).elim
    (fun hx => (h.1 x hx).imp id fun ⟨e, he, hx⟩ => ⟨e, List.mem_append_left _ he, hx⟩)
    (fun hx => (h'.1 x hx).imp id fun ⟨e, he, hx⟩ => ⟨e, List.mem_append_right _ he, hx⟩),
   fun e he => (List.mem_append.1 he).elim (fun he => List.mem_append_left _ (h.2 e he))
    (fun he => List.mem_append_right _ (h'.2 e he))⟩

theorem step_accs (h : Agree L fr ro rs s m t) (hp : Placed L fr ro rs t.fp) {i : Instr} (hi : plain ro rs i = true)
    {Q : St → Mem → Prop} (hs : wp L.ctx (step fr s i) m Q) :
    Same L ro rs t.fp (faccs t i) (trace (step fr s i) m) := by
  cases i with
  | MOVQ_arg off d =>
    simp only [step] at hs ⊢
    cases e : fr.get off with
    | none => rw [e] at hs; exact hs.elim
    | some sl =>
      rw [e] at hs
      have := hp.slots off sl e
      cases sl with
      | ptr p => exact same_arg (by simp only [slotSize] at this; omega)
      | q v => exact same_arg (by simp only [slotSize] at this; omega)
      | d v => exact hs.elim
      | w v => exact hs.elim
  | MOVWQZX_arg off d =>
    simp only [step] at hs ⊢
    cases e : fr.get off with
    | none => rw [e] at hs; exact hs.elim
    | some sl =>
      rw [e] at hs
      have := hp.slots off sl e
      cases sl with
      | w v => exact same_arg (by simp only [slotSize] at this; omega)
      | q v => exact hs.elim
      | d v => exact hs.elim
      | ptr v => exact hs.elim
  | VBROADCASTSS_arg off d =>
    simp only [step] at hs ⊢
    cases e : fr.get off with
    | none => rw [e] at hs; exact hs.elim
    | some sl =>
      rw [e] at hs
      have := hp.slots off sl e
      cases sl with
      | d v => exact same_arg (by simp only [slotSize] at this; omega)
      | q v => exact hs.elim
      | w v => exact hs.elim
      | ptr v => exact hs.elim
  | MOVW_ret a off =>
    simp only [step] at hs ⊢
    obtain ⟨hr, h2⟩ : off = ro ∧ rs = 2 := by simpa [plain] using hi
    cases e : s.gp a with
    | int v => exact same_ret (by omega)
    | undef => rw [e] at hs; exact hs.elim
    | ptr p => rw [e] at hs; exact hs.elim
  | MOVBQZX_mem b d =>
    simp only [step] at hs ⊢
    have := h.gp b
    cases e : s.gp b with
    | ptr p => rw [e] at this; exact same_rd (p := p) this 1
    | undef => rw [e] at hs; exact hs.elim
    | int p => rw [e] at hs; exact hs.elim
  | VLDDQU disp b d =>
    simp only [step] at hs ⊢
    have := h.gp b
    cases e : s.gp b with
    | ptr p =>
      rw [e] at this
      have ha : t.gp b = L.addr p := this
      show Same L ro rs t.fp (rdN (t.gp b + BitVec.ofNat 64 disp) 16) (trace ((load16 (p.add disp)).bind _) m)
      rw [trace_load16 _ _ _ fun _ _ => rfl]
      exact same_rd (by rw [addr_add, ha]) 16
    | undef => rw [e] at hs; exact hs.elim
    | int p => rw [e] at hs; exact hs.elim
  | VMOVDQU a disp b =>
    simp only [step] at hs ⊢
    have := h.gp b
    cases e : s.gp b with
    | ptr p =>
      rw [e] at this
      have ha : t.gp b = L.addr p := this
      show Same L ro rs t.fp (wrN (t.gp b + BitVec.ofNat 64 disp) 16)
        (trace ((storeN (p.add disp) (s.x a) 0 16).bind fun _ => .ret s) m)
      rw [trace_bind, trace_storeN, thenTrace_nil fun _ _ => rfl, List.append_nil]
      simp only [Nat.zero_add]
      exact same_wr (by rw [addr_add, ha]) 16
    | undef => rw [e] at hs; exact hs.elim
    | int p => rw [e] at hs; exact hs.elim
  | VPBROADCASTW sym d =>
    refine same_rd (p := ⟨sym, 0⟩) ?_ 2
    rw [Layout.addr, h.called.sb sym hi]
    exact (BitVec.add_zero _).symm
  | VPSHUFB b a d =>
    simp only [step] at hs ⊢
    have := h.gp b
    cases e : s.gp b with
    | ptr p =>
      rw [e] at this
      show Same L ro rs t.fp (rdN (t.gp b) 16) (trace ((load16 p).bind _) m)
      rw [trace_load16 _ _ _ fun _ _ => rfl]
      exact same_rd this 16
    | undef => rw [e] at hs; exact hs.elim
    | int p => rw [e] at hs; exact hs.elim
  | MOVWQZX a d =>
    simp only [step] at hs ⊢
    cases e : s.gp a with
    | int v => exact same_nil
    | undef => rw [e] at hs; exact hs.elim
    | ptr p => rw [e] at hs; exact hs.elim
  | MOVBQZX a d =>
    simp only [step] at hs ⊢
    cases e : s.gp a with
    | int v => exact same_nil
    | undef => rw [e] at hs; exact hs.elim
    | ptr p => rw [e] at hs; exact hs.elim
  | SHLQ n d =>
    simp only [step] at hs ⊢
    cases e : s.gp d with
    | int v => exact same_nil
    | undef => rw [e] at hs; exact hs.elim
    | ptr p => rw [e] at hs; exact hs.elim
  | SHRQ n d =>
    simp only [step] at hs ⊢
    cases e : s.gp d with
    | int v => exact same_nil
    | undef => rw [e] at hs; exact hs.elim
    | ptr p => rw [e] at hs; exact hs.elim
  | ADDQ a d =>
    simp only [step] at hs ⊢
    cases e : s.gp a <;> cases e' : s.gp d <;> rw [e, e'] at hs <;> first | exact hs.elim | exact same_nil
  | MOVQ a d => exact same_nil
  | VPMINUB b a d => exact same_nil
  | VPACKUSWB b a d => exact same_nil
  | VPMINSW b a d => exact same_nil
  | VPADDUSW b a d => exact same_nil
  | VPMOVMSKB a d => exact same_nil
  | VPALIGNR n b a d => exact same_nil
  | VPSUBD b a d => exact same_nil
  | VPADDD b a d => exact same_nil
  | VPSLLDQ n a d => exact same_nil
  | VPSHUFD n a d => exact same_nil

theorem wp_ctx_run {α : Type} {p : Prog α} {Q : α → Mem → Prop} (h : wp L.ctx p m Q) :
    ∃ a m', run p m = (.ok a, m') ∧ wp L.ctx p m fun b m'' => b = a ∧ m'' = m' ∧ Q b m'' := by
  have h' := (wp_iff _ _ _ _).1 h
  cases e : run p m with
  | mk o m' =>
    cases o with
    | panic k => have := h'.2; rw [e] at this; exact this.elim
    | ok a =>
      refine ⟨a, m', rfl, (wp_iff _ _ _ _).2 ⟨h'.1, ?_⟩⟩
      have := h'.2
      rw [e] at this ⊢
      exact ⟨rfl, rfl, this⟩

theorem exec_accs : ∀ (is : List Instr) {s : St} {m : Mem} {t : Mach} {Q : St → Mem → Prop}, Agree L fr ro rs s m t →
    Placed L fr ro rs t.fp → is.all (plain ro rs) = true → wp L.ctx (exec fr is s) m Q →
    Same L ro rs t.fp (ftrace t is) (trace (exec fr is s) m)
  | [], _, _, _, _, _, _, _, _ => same_nil
  | i :: is, s, m, t, Q, h, hp, hi, hs => by
    simp only [List.all_cons, Bool.and_eq_true] at hi
    have hw : wp L.ctx (step fr s i) m fun s' m' => wp L.ctx (exec fr is s') m' Q := wp_bind.1 hs
    obtain ⟨s₁, m₁, hr, hw'⟩ := wp_ctx_run hw
    obtain ⟨_, _, ⟨rfl, rfl, q₁⟩, a₁, k₁⟩ := sim_step h hp hi.1 hw'
    have ih := exec_accs is a₁ (by rw [k₁.1]; exact hp) hi.2 q₁
    rw [k₁.1] at ih
    show Same L ro rs t.fp (faccs t i ++ ftrace (fstep t i) is) (trace ((step fr s i).bind (exec fr is)) m)
    rw [trace_bind, hr]
    exact (step_accs h hp hi.1 hw).append ih

/-! ## Functions -/

theorem accs_result {is : List Instr} (hd : defined [ro] [] [] [] is = true) (hi : is.all (plain ro 2) = true)
    (hp : Placed L fr ro 2 t.fp) (hc : Called L fr m t) {p : Prog U16} (hpr : p = (do
      let s ← exec fr is St.init
      match s.res.lookup ro with
      | some r => return r
      | none => .panic .fault)) {Q : U16 → Mem → Prop} (h : wp L.ctx p m Q) :
    Same L ro 2 t.fp (ftrace t is) (trace p m) := by
  have e : p = ((exec fr is (entry t)).bind _) := hpr.trans (exec_result fr is ro hd St.init (entry t)
    fun r => match r with | some r => pure r | none => .panic .fault)
  rw [e] at h ⊢
  rw [trace_bind, thenTrace_nil fun s _ => ?_, List.append_nil]
  · exact exec_accs is (agree_entry hc) hp hi (wp_bind.1 h)
  · cases s.res.lookup ro <;> rfl

theorem accs_unit {is : List Instr} (hd : defined [] [] [] [] is = true) (hi : is.all (plain ro 0) = true)
    (hp : Placed L fr ro 0 t.fp) (hc : Called L fr m t) {p : Prog Unit} (hpr : p = (do
      let _ ← exec fr is St.init
      return ())) {Q : Unit → Mem → Prop} (h : wp L.ctx p m Q) :
    Same L ro 0 t.fp (ftrace t is) (trace p m) := by
  have e : p = ((exec fr is (entry t)).bind _) := hpr.trans (exec_unit fr is hd St.init (entry t) (β := Unit) (pure ()))
  rw [e] at h ⊢
  rw [trace_bind, thenTrace_nil fun _ _ => rfl, List.append_nil]
  exact exec_accs is (agree_entry hc) hp hi (wp_bind.1 h)

/-! ## Programs -/

/-- An access the model also makes, or one to the stack. -/
def Known (L : Layout) (stk : Addr → Prop) (x : Acc) : Prop :=
  (match x with
    | .rd a => stk a
    | .wr a => stk a) ∨
  match x with
    | .rd a => ∃ q, L.R q ∧ L.addr q = a
    | .wr a => ∃ q, L.W q ∧ L.addr q = a

theorem Entry.known {n : Nat} {mem : FMem} (h : Entry L stk fr n mem t) (hn : n = ro + rs) {xs : List Acc}
    {es : List Event} (hx : Same L ro rs t.fp xs es) (he : ∀ e ∈ es, L.ctx.allows e) : ∀ x ∈ xs, Known L stk x := by
  intro x hm
  rcases hx.1 x hm with ho | ⟨e, hm', rfl⟩
  · cases x <;> obtain ⟨k, hk, rfl⟩ := ho <;> exact .inl (h.room k (by omega))
  · have := he e hm'
    cases e <;> exact .inr ⟨_, this, rfl⟩

theorem shows_store {mem : FMem} {p : Ptr} (hf : Fits L stk) (hp : L.W p) (v : Byte) (hm : Shows L mem m) :
    Shows L (fun q => if q = L.addr p then v else mem q) (m.set p v) := fun q hq => by
  by_cases e : q = p
  · rw [e]; simp [Mem.set]
  · have : L.addr q ≠ L.addr p := fun he => e (hf.inj q p hq (.inr hp) he)
    simp only [Mem.set, if_neg e, if_neg this]
    exact hm q hq

theorem tables_store {p : Ptr} (hf : Fits L stk) (hp : L.W p) (v : Byte) (ht : TablesLoaded m) : TablesLoaded (m.set p v) :=
  tables_keep (L := L) (fun q hq => by
    have : q ≠ p := fun e => hq (e ▸ hp)
    simp [Mem.set, this]) hf.heap ht

/-- Every access is one of the model or to the stack. -/
theorem facc_sound {α : Type} {p : Prog α} {mem : FMem} {x : Acc} (h : FAcc L stk p mem x) (hf : Fits L stk) :
    ∀ {m : Mem}, TablesLoaded m → Shows L mem m → wp L.any p m (fun _ _ => True) → Known L stk x := by
  induction h with
  | load hp => exact fun _ _ hw => .inr ⟨_, hw.1, rfl⟩
  | @loadThen p k mem x hp h ih =>
    intro m ht hm hw
    rw [hm p (.inl hw.1)] at ih
    exact ih ht hm hw.2
  | store => exact fun _ _ hw => .inr ⟨_, hw.1, rfl⟩
  | @storeThen p v k mem x h ih =>
    intro m ht hm hw
    exact ih (tables_store hf hw.1 v ht) (shows_store hf hw.1 v hm) hw.2
  | @put8 inn out k mem x t he h =>
    intro m ht hm hw
    obtain ⟨c, m', hr⟩ := put8_runs (inn := inn) (out := out) ht
    have hw := wp_strict (wp_bind.1 hw) hr
    exact Entry.known (ro := 64) (rs := 2) he rfl (accs_result (by decide +kernel) (by decide +kernel)
      (he.placed hf (by simp [put8Args, sliceArg, slotSize]) (by decide)) (he.called hf hm) rfl hw) ((wp_iff ..).1 hw).1 x h
  | @put8Then inn out k mem x t he h ih =>
    intro m ht hm hw
    obtain ⟨c, m', hr⟩ := put8_runs (inn := inn) (out := out) ht
    obtain ⟨_, _, ⟨rfl, rfl, hq⟩, h1, h2, h3⟩ := refine_result (by decide +kernel) (by decide +kernel)
      (he.placed hf (by simp [put8Args, sliceArg, slotSize]) (by decide)) (he.called hf hm) (wp_strict (wp_bind.1 hw) hr)
    rw [h1] at ih
    exact ih (tables_keep (keep (wp_strict (wp_bind.1 hw) hr) hr) hf.heap ht) h2 hq
  | @put8Delta inn out prev k mem x t he h =>
    intro m ht hm hw
    obtain ⟨c, m', hr⟩ := put8Delta_runs (inn := inn) (out := out) prev ht
    have hw := wp_strict (wp_bind.1 hw) hr
    exact Entry.known (ro := 72) (rs := 2) he rfl (accs_result (by decide +kernel) (by decide +kernel)
      (he.placed hf (by simp [put8DeltaArgs, sliceArg, slotSize]) (by decide)) (he.called hf hm) rfl hw) ((wp_iff ..).1 hw).1 x h
  | @put8DeltaThen inn out prev k mem x t he h ih =>
    intro m ht hm hw
    obtain ⟨c, m', hr⟩ := put8Delta_runs (inn := inn) (out := out) prev ht
    obtain ⟨_, _, ⟨rfl, rfl, hq⟩, h1, h2, h3⟩ := refine_result (by decide +kernel) (by decide +kernel)
      (he.placed hf (by simp [put8DeltaArgs, sliceArg, slotSize]) (by decide)) (he.called hf hm) (wp_strict (wp_bind.1 hw) hr)
    rw [h1] at ih
    exact ih (tables_keep (keep (wp_strict (wp_bind.1 hw) hr) hr) hf.heap ht) h2 hq
  | @get8 inn out ctrl k mem x t he h =>
    intro m ht hm hw
    obtain ⟨m', hr⟩ := get8_runs (inn := inn) (out := out) ctrl ht
    have hw := wp_strict (wp_bind.1 hw) hr
    exact Entry.known (ro := 72) (rs := 0) he rfl (accs_unit (ro := 72) (by decide +kernel) (by decide +kernel)
      (he.placed hf (by simp [get8Args, sliceArg, slotSize]) (by decide)) (he.called hf hm) rfl hw) ((wp_iff ..).1 hw).1 x h
  | @get8Then inn out ctrl k mem x t he h ih =>
    intro m ht hm hw
    obtain ⟨m', hr⟩ := get8_runs (inn := inn) (out := out) ctrl ht
    obtain ⟨_, ⟨-, rfl, hq⟩, h2, h3⟩ := refine_unit (ro := 72) (by decide +kernel) (by decide +kernel)
      (he.placed hf (by simp [get8Args, sliceArg, slotSize]) (by decide)) (he.called hf hm) (wp_strict (wp_bind.1 hw) hr)
    exact ih (tables_keep (keep (wp_strict (wp_bind.1 hw) hr) hr) hf.heap ht) h2 hq
  | @get8Delta inn out ctrl prev k mem x t he h =>
    intro m ht hm hw
    obtain ⟨m', hr⟩ := get8Delta_runs (inn := inn) (out := out) ctrl prev ht
    have hw := wp_strict (wp_bind.1 hw) hr
    exact Entry.known (ro := 72) (rs := 0) he rfl (accs_unit (ro := 72) (by decide +kernel) (by decide +kernel)
      (he.placed hf (by simp [get8DeltaArgs, sliceArg, slotSize]) (by decide)) (he.called hf hm) rfl hw) ((wp_iff ..).1 hw).1 x h
  | @get8DeltaThen inn out ctrl prev k mem x t he h ih =>
    intro m ht hm hw
    obtain ⟨m', hr⟩ := get8Delta_runs (inn := inn) (out := out) ctrl prev ht
    obtain ⟨_, ⟨-, rfl, hq⟩, h2, h3⟩ := refine_unit (ro := 72) (by decide +kernel) (by decide +kernel)
      (he.placed hf (by simp [get8DeltaArgs, sliceArg, slotSize]) (by decide)) (he.called hf hm) (wp_strict (wp_bind.1 hw) hr)
    exact ih (tables_keep (keep (wp_strict (wp_bind.1 hw) hr) hr) hf.heap ht) h2 hq

/-- Every access of the model is made. -/
theorem facc_complete {α : Type} {p : Prog α} {mem mem' : FMem} {o : Outcome α} (h : FRun L stk p mem o mem') (hf : Fits L stk) :
    ∀ {m : Mem}, TablesLoaded m → Shows L mem m → wp L.any p m (fun _ _ => True) →
      ∀ e ∈ trace p m, FAcc L stk p mem (L.acc e) := by
  induction h with
  | ret a mem => exact fun _ _ _ e he => by simp [trace] at he
  | panic k mem => exact fun _ _ _ e he => by simp [trace] at he
  | @load p k mem mem' o hp h ih =>
    intro m ht hm hw e he
    rcases List.mem_cons.1 he with rfl | he
    · exact .load hp
    · refine .loadThen hp ?_
      rw [hm p (.inl hw.1)] at ih ⊢
      exact ih ht hm hw.2 e he
  | @store p v k mem mem' o h ih =>
    intro m ht hm hw e he
    rcases List.mem_cons.1 he with rfl | he
    · exact .store
    · exact .storeThen (ih (tables_store hf hw.1 v ht) (shows_store hf hw.1 v hm) hw.2 e he)
  | @put8 inn out k mem mem' o t he h ih =>
    intro m ht hm hw e hm'
    obtain ⟨c, m', hr⟩ := put8_runs (inn := inn) (out := out) ht
    have hw' := wp_strict (wp_bind.1 hw) hr
    rw [trace_bind, hr] at hm'
    rcases List.mem_append.1 hm' with hm' | hm'
    · exact .put8 he ((accs_result (by decide +kernel) (by decide +kernel)
        (he.placed hf (by simp [put8Args, sliceArg, slotSize]) (by decide)) (he.called hf hm) rfl hw').2 e hm')
    · obtain ⟨_, _, ⟨rfl, rfl, hq⟩, h1, h2, h3⟩ := refine_result (by decide +kernel) (by decide +kernel)
        (he.placed hf (by simp [put8Args, sliceArg, slotSize]) (by decide)) (he.called hf hm) hw'
      refine .put8Then he ?_
      rw [h1] at ih ⊢
      exact ih (tables_keep (keep hw' hr) hf.heap ht) h2 hq e hm'
  | @put8Delta inn out prev k mem mem' o t he h ih =>
    intro m ht hm hw e hm'
    obtain ⟨c, m', hr⟩ := put8Delta_runs (inn := inn) (out := out) prev ht
    have hw' := wp_strict (wp_bind.1 hw) hr
    rw [trace_bind, hr] at hm'
    rcases List.mem_append.1 hm' with hm' | hm'
    · exact .put8Delta he ((accs_result (by decide +kernel) (by decide +kernel)
        (he.placed hf (by simp [put8DeltaArgs, sliceArg, slotSize]) (by decide)) (he.called hf hm) rfl hw').2 e hm')
    · obtain ⟨_, _, ⟨rfl, rfl, hq⟩, h1, h2, h3⟩ := refine_result (by decide +kernel) (by decide +kernel)
        (he.placed hf (by simp [put8DeltaArgs, sliceArg, slotSize]) (by decide)) (he.called hf hm) hw'
      refine .put8DeltaThen he ?_
      rw [h1] at ih ⊢
      exact ih (tables_keep (keep hw' hr) hf.heap ht) h2 hq e hm'
  | @get8 inn out ctrl k mem mem' o t he h ih =>
    intro m ht hm hw e hm'
    obtain ⟨m', hr⟩ := get8_runs (inn := inn) (out := out) ctrl ht
    have hw' := wp_strict (wp_bind.1 hw) hr
    rw [trace_bind, hr] at hm'
    rcases List.mem_append.1 hm' with hm' | hm'
    · exact .get8 he ((accs_unit (ro := 72) (by decide +kernel) (by decide +kernel)
        (he.placed hf (by simp [get8Args, sliceArg, slotSize]) (by decide)) (he.called hf hm) rfl hw').2 e hm')
    · obtain ⟨_, ⟨-, rfl, hq⟩, h2, h3⟩ := refine_unit (ro := 72) (by decide +kernel) (by decide +kernel)
        (he.placed hf (by simp [get8Args, sliceArg, slotSize]) (by decide)) (he.called hf hm) hw'
      refine .get8Then he ?_
      exact ih (tables_keep (keep hw' hr) hf.heap ht) h2 hq e hm'
  | @get8Delta inn out ctrl prev k mem mem' o t he h ih =>
    intro m ht hm hw e hm'
    obtain ⟨m', hr⟩ := get8Delta_runs (inn := inn) (out := out) ctrl prev ht
    have hw' := wp_strict (wp_bind.1 hw) hr
    rw [trace_bind, hr] at hm'
    rcases List.mem_append.1 hm' with hm' | hm'
    · exact .get8Delta he ((accs_unit (ro := 72) (by decide +kernel) (by decide +kernel)
        (he.placed hf (by simp [get8DeltaArgs, sliceArg, slotSize]) (by decide)) (he.called hf hm) rfl hw').2 e hm')
    · obtain ⟨_, ⟨-, rfl, hq⟩, h2, h3⟩ := refine_unit (ro := 72) (by decide +kernel) (by decide +kernel)
        (he.placed hf (by simp [get8DeltaArgs, sliceArg, slotSize]) (by decide)) (he.called hf hm) hw'
      refine .get8DeltaThen he ?_
      exact ih (tables_keep (keep hw' hr) hf.heap ht) h2 hq e hm'

/-! ## The layout matters only for the addresses -/

theorem Entry.rebase {L' : Layout} (hb : L'.base = L.base) {n : Nat} {mem : FMem} (h : Entry L stk fr n mem t) :
    Entry L' stk fr n mem t := by
  obtain ⟨b, R, W⟩ := L
  obtain ⟨b', R', W'⟩ := L'
  cases hb
  exact ⟨h.mem, h.room, h.frame, h.sb⟩

theorem facc_rebase {L' : Layout} (hb : L'.base = L.base) {α : Type} {p : Prog α} {mem : FMem} {x : Acc} (h : FAcc L stk p mem x) :
    FAcc L' stk p mem x := by
  have ha : ∀ q, L'.addr q = L.addr q := fun q => by rw [Layout.addr, Layout.addr, hb]
  induction h with
  | load hp => exact ha _ ▸ .load hp
  | @loadThen p k mem x hp h ih => exact .loadThen hp (by rw [ha]; exact ih)
  | store => exact ha _ ▸ .store
  | @storeThen p v k mem x h ih => exact .storeThen (by rw [ha]; exact ih)
  | put8 he h => exact .put8 (he.rebase hb) h
  | put8Then he h ih => exact .put8Then (he.rebase hb) ih
  | put8Delta he h => exact .put8Delta (he.rebase hb) h
  | put8DeltaThen he h ih => exact .put8DeltaThen (he.rebase hb) ih
  | get8 he h => exact .get8 (he.rebase hb) h
  | get8Then he h ih => exact .get8Then (he.rebase hb) ih
  | get8Delta he h => exact .get8Delta (he.rebase hb) h
  | get8DeltaThen he h ih => exact .get8DeltaThen (he.rebase hb) ih

/-- The layout with exactly the bytes a run touches. -/
def Layout.only {α : Type} (L : Layout) (p : Prog α) (m : Mem) : Layout :=
  ⟨L.base, fun q => Event.rd q ∈ trace p m, fun q => Event.wr q ∈ trace p m⟩

end SVB.Flat
