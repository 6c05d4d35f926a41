import Verif.Proofs.Results
import Verif.Proofs.SpecFacts

/-! # The block functions in terms of `run` and the format -/

set_option autoImplicit false

namespace SVB
open Spec

theorem disjoint_segs {e f : Nat} {s : Slice e} {t : Slice f} (h : Disjoint s t) (q : Ptr)
    (h1 : Seg s.blk s.off (s.off + e * s.len) q) : ¬ Seg t.blk t.off (t.off + f * t.len) q := by
  rintro ⟨a, b, c⟩
  obtain ⟨a', b', c'⟩ := h1
  rcases h with h | h | h
  · exact h (by rw [← a, ← a'])
  · omega
  · omega

/-! ## Control values -/

theorem digits_eq (n a b : Nat) (ha : a < 4 ^ n) (hb : b < 4 ^ n)
    (h : ∀ k < n, a / 4 ^ k % 4 = b / 4 ^ k % 4) : a = b := by
  induction n generalizing a b with
  | zero => simp at ha hb; omega
  | succ n ih =>
    rw [Nat.pow_succ] at ha hb
    have h0 := h 0 (by omega)
    simp only [Nat.pow_zero, Nat.div_one] at h0
    have := ih (a / 4) (b / 4) (by omega) (by omega) (fun k hk => by
      have := h (k + 1) (by omega)
      rwa [Nat.pow_succ, Nat.mul_comm, ← Nat.div_div_eq_div_mul, ← Nat.div_div_eq_div_mul] at this)
    omega

theorem u16_eq_of_codes {c d : U16} (h : ∀ k < 8, code16 c k = code16 d k) : c = d :=
  BitVec.eq_of_toNat_eq (digits_eq 8 _ _ (by have := c.isLt; simpa using this)
    (by have := d.isLt; simpa using this) h)

theorem ctrl16_toNat {g : List U32} (h : g.length ≤ 8) : (ctrl16 g).toNat = ctrlNat g := by
  have := ctrlNat_lt 8 g h
  unfold ctrl16
  rw [BitVec.toNat_ofNat, Nat.mod_eq_of_lt (by simpa using this)]

theorem ctrlByte_toNat {g : List U32} (h : g.length ≤ 4) : (ctrlByte g).toNat = ctrlNat g := by
  have := ctrlNat_lt 4 g h
  unfold ctrlByte
  rw [BitVec.toNat_ofNat, Nat.mod_eq_of_lt (by simpa using this)]

theorem ctrl16_code {g : List U32} (h : g.length ≤ 8) (k : Nat) :
    code16 (ctrl16 g) k + 1 = byteLen (g.getD k 0) := by
  unfold code16; rw [ctrl16_toNat h]; exact ctrlNat_code k g

/-! ## Encoders -/

/-- Result of a block encoder: control `ctl` and the data bytes of `xs` if `ok`, a bounds panic
otherwise; bytes from `L` on, and all other memory, untouched. -/
structure EncRes {γ : Type} (p : Prog γ) (ctl : γ) (ok : Prop) (xs : List U32) (out : Bytes) (L : Nat)
    (m : Mem) : Prop where
  good : ok → ∃ m', run p m = (.ok ctl, m') ∧ (bytesOf m' out).take (dataBytes xs).length = dataBytes xs
  bad : ¬ ok → ∃ k m', run p m = (.panic k, m') ∧ BoundsPanic k
  frame : ∀ q, ¬ Seg out.blk out.off (out.off + L) q → (run p m).2 q = m q

theorem EncRes.imp1 {γ : Type} {p : Prog γ} {ctl : γ} {xs : List U32} {out : Bytes} {L : Nat} {m : Mem}
    (h : EncRes p ctl True xs out L m) :
    (∃ m', run p m = (.ok ctl, m') ∧ (bytesOf m' out).take (dataBytes xs).length = dataBytes xs) ∧ True ∧
      ∀ q, ¬ Seg out.blk out.off (out.off + L) q → (run p m).2 q = m q :=
  ⟨h.good trivial, trivial, h.frame⟩

theorem offs_congr {v w : Nat → U32} {n : Nat} (h : ∀ t < n, v t = w t) : offs v n = offs w n :=
  psum_congr fun t ht => by rw [h t ht]

theorem bytesOf_take {m : Mem} {s : Bytes} {n : Nat} (h : n ≤ s.len) :
    (bytesOf m s).take n = (List.range n).map fun i => m ⟨s.blk, s.off + i⟩ := by
  unfold bytesOf
  rw [← List.map_take, List.take_range, Nat.min_eq_left h]

theorem stored_data {m : Mem} {out : Bytes} {v : Nat → U32} {xs : List U32} {n : Nat} (hn : xs.length = n)
    (hv : ∀ t < n, v t = fn xs t) (hl : offs v n ≤ out.len) (h : Stored m out.blk out.off v 0 n) :
    (bytesOf m out).take (dataBytes xs).length = dataBytes xs := by
  have e : offs v n = (dataBytes xs).length := by rw [offs_congr hv, ← hn, offs_length]
  rw [bytesOf_take (by omega)]
  have h' : Stored m out.blk out.off (fn xs) 0 n := by
    intro t h1 h2
    have := h t h1 h2
    rw [hv t h2, offs_congr (w := fn xs) (fun s hs => hv s (by omega))] at this
    exact this
  have := data_eq n (by omega) h'
  rw [show xs.take n = xs by rw [← hn, List.take_length]] at this
  rw [← this, List.length_map, List.length_range]

theorem encRes_of_wp {γ : Type} {p : Prog γ} {ctl : γ} {inn : U32s} {out : Bytes} {n : Nat} {m : Mem}
    {v : Nat → U32} {xs : List U32} {R : Ptr → Prop} (C : γ → Prop) (hn : xs.length = n)
    (hv : ∀ t < n, v t = fn xs t) (hC : ∀ c, C c → c = ctl)
    (h : wp ⟨R, Seg out.blk (out.off + offs v 0) (out.off + offs v (0 + n)),
        fun k _ => boundsPanic k ∧ ¬ (n ≤ inn.len ∧ out.off + offs v (0 + n) ≤ out.off + out.len)⟩ p m
      (fun c m' => n ≤ inn.len ∧ out.off + offs v (0 + n) ≤ out.off + out.len ∧ C c ∧
        Stored m' out.blk out.off v 0 (0 + n))) :
    EncRes p ctl (n ≤ inn.len ∧ (dataBytes xs).length ≤ out.len) xs out (dataBytes xs).length m := by
  have e : offs v n = (dataBytes xs).length := by rw [offs_congr hv, ← hn, offs_length]
  simp only [Nat.zero_add, e] at h
  obtain ⟨h1, h2, -⟩ := run_of_wp' h
  refine ⟨fun ok => ?_, fun bad => ?_, fun q hq => h2 q (fun h => hq ?_)⟩
  · rcases h1 with ⟨c, m', hr, -, -, hc, hs⟩ | ⟨k, m', -, -, hk⟩
    · obtain rfl := hC c hc
      exact ⟨m', hr, stored_data hn hv (by omega) hs⟩
    · exact absurd ⟨ok.1, by omega⟩ hk
  · rcases h1 with ⟨c, m', hr, h3, h4, -⟩ | ⟨k, m', hr, hk, -⟩
    · exact absurd ⟨h3, by omega⟩ bad
    · exact ⟨k, m', hr, hk⟩
  · exact h

theorem encRes_of_fast {γ : Type} {p : Prog γ} {ctl : γ} {out : Bytes} {m : Mem}
    {v : Nat → U32} {xs : List U32} {R : Ptr → Prop} (C : γ → Prop) (hn : xs.length = 8)
    (hv : ∀ t < 8, v t = fn xs t) (hC : ∀ c, C c → c = ctl) (hl : 32 ≤ out.len)
    (h : wp ⟨R, encW out.blk out.off v 0, fun _ _ => False⟩ p m
      (fun c m' => C c ∧ Stored m' out.blk out.off v 0 (0 + 8))) :
    EncRes p ctl True xs out 32 m := by
  obtain ⟨c, m', hr, ⟨hc, hs⟩, hf, -⟩ := run_of_wp h (fun _ _ h => h)
  obtain rfl := hC c hc
  have b4 := offs_bounds v (show 0 ≤ 4 by omega)
  have b8 := offs_bounds v (show 0 ≤ 8 by omega)
  have z : offs v 0 = 0 := rfl
  refine ⟨fun _ => ⟨m', hr, stored_data hn hv (by omega) hs⟩, fun h => absurd trivial h, fun q hq => ?_⟩
  rw [hr]
  refine hf q fun h => hq ?_
  rcases h with ⟨h1, h2, h3⟩ | ⟨h1, h2, h3⟩
  · exact ⟨h1, by omega, by omega⟩
  · exact ⟨h1, by omega, by rw [Nat.zero_add] at h3; omega⟩

theorem codes_ctrlByte {xs : List U32} (hx : xs.length = 4) (c : Byte)
    (h : ∀ k < 4, code c k + 1 = byteLen (fn xs (0 + k))) : c = ctrlByte xs := by
  apply byte_eq_of_codes
  intro k hk
  have h1 := h k hk
  have h2 := ctrlByte_code (g := xs) (by omega) k
  rw [Nat.zero_add] at h1
  simp only [fn] at h1; omega

theorem codes_ctrl16 {xs : List U32} (hx : xs.length = 8) (c : U16)
    (h : ∀ k < 8, code16 c k + 1 = byteLen (fn xs (0 + k))) : c = ctrl16 xs := by
  apply u16_eq_of_codes
  intro k hk
  have h1 := h k hk
  have h2 := ctrl16_code (g := xs) (by omega) k
  rw [Nat.zero_add] at h1
  simp only [fn] at h1; omega

theorem word_wordsN (m : Mem) (inn : U32s) (n k : Nat) (h : k < n) :
    wordAt m inn.blk (inn.off + 4 * k) = fn (wordsN m inn n) (0 + k) := by
  rw [Nat.zero_add, wordsN_fn m inn n k h]

theorem delta_wordsN_zero (m : Mem) (inn : U32s) (n : Nat) (prev : U32) (h : 0 < n) :
    wordAt m inn.blk inn.off - prev = fn (delta prev (wordsN m inn n)) 0 := by
  rw [delta_fn prev _ 0 (by rw [wordsN_length]; exact h), wordsN_fn m inn n 0 h]; rfl

theorem delta_wordsN_succ (m : Mem) (inn : U32s) (n k : Nat) (prev : U32) (h : k + 1 < n) :
    wordAt m inn.blk (inn.off + 4 * (k + 1)) - wordAt m inn.blk (inn.off + 4 * k) =
      fn (delta prev (wordsN m inn n)) (0 + (k + 1)) := by
  rw [Nat.zero_add, delta_fn prev _ (k + 1) (by rw [wordsN_length]; exact h), wordsN_fn m inn n _ h, pv_succ,
    wordsN_fn m inn n k (by omega)]

theorem put4_res {inn : U32s} {out : Bytes} {m : Mem} :
    EncRes (put4uint32Scalar inn out) (ctrlByte (wordsN m inn 4))
      (4 ≤ inn.len ∧ (dataBytes (wordsN m inn 4)).length ≤ out.len) (wordsN m inn 4) out
      (dataBytes (wordsN m inn 4)).length m :=
  encRes_of_wp _ (wordsN_length _ _ _) (fun _ _ => rfl) (codes_ctrlByte (wordsN_length _ _ _))
    (put4_spec (fn (wordsN m inn 4)) 0 out.off inn out m rfl (fun _ k hk => word_wordsN m inn 4 k hk))

theorem put4Delta_res {inn : U32s} {out : Bytes} {m : Mem} (prev : U32) :
    EncRes (put4uint32DeltaScalar inn out prev) (ctrlByte (delta prev (wordsN m inn 4)))
      (4 ≤ inn.len ∧ (dataBytes (delta prev (wordsN m inn 4))).length ≤ out.len)
      (delta prev (wordsN m inn 4)) out (dataBytes (delta prev (wordsN m inn 4))).length m := by
  have hl : (delta prev (wordsN m inn 4)).length = 4 := by rw [delta_length, wordsN_length]
  exact encRes_of_wp _ hl (fun _ _ => rfl) (codes_ctrlByte hl)
    (put4Delta_spec (fn (delta prev (wordsN m inn 4))) 0 out.off inn out prev m rfl
      (fun _ => delta_wordsN_zero m inn 4 prev (by omega))
      (fun _ k hk => delta_wordsN_succ m inn 4 k prev (by omega)))

theorem put8Scalar_res {inn : U32s} {out : Bytes} {m : Mem} (h : BlockPre inn out m) :
    EncRes (put8uint32Scalar inn out) (ctrl16 (wordsN m inn 8))
      (8 ≤ inn.len ∧ (dataBytes (wordsN m inn 8)).length ≤ out.len) (wordsN m inn 8) out
      (dataBytes (wordsN m inn 8)).length m :=
  encRes_of_wp _ (wordsN_length _ _ _) (fun _ _ => rfl) (codes_ctrl16 (wordsN_length _ _ _))
    (put8_spec (fn (wordsN m inn 8)) 0 out.off inn out m h.tables h.heap rfl
      (fun q hq hq' => disjoint_segs h.disj q hq (by rwa [Nat.one_mul]))
      (fun k hk _ => word_wordsN m inn 8 k hk))

theorem put8DeltaScalar_res {inn : U32s} {out : Bytes} {m : Mem} (prev : U32) (h : BlockPre inn out m) :
    EncRes (put8uint32DeltaScalar inn out prev) (ctrl16 (delta prev (wordsN m inn 8)))
      (8 ≤ inn.len ∧ (dataBytes (delta prev (wordsN m inn 8))).length ≤ out.len)
      (delta prev (wordsN m inn 8)) out (dataBytes (delta prev (wordsN m inn 8))).length m := by
  have hl : (delta prev (wordsN m inn 8)).length = 8 := by rw [delta_length, wordsN_length]
  exact encRes_of_wp _ hl (fun _ _ => rfl) (codes_ctrl16 hl)
    (put8Delta_spec (fn (delta prev (wordsN m inn 8))) 0 out.off inn out prev m h.tables h.heap rfl
      (fun q hq hq' => disjoint_segs h.disj q hq (by rwa [Nat.one_mul]))
      (fun _ => delta_wordsN_zero m inn 8 prev (by omega))
      (fun k hk _ => delta_wordsN_succ m inn 8 k prev (by omega)))

theorem put8Fast_res {inn : U32s} {out : Bytes} {m : Mem} (hT : TablesLoaded m) (hl : 32 ≤ out.len) :
    EncRes (put8uint32Fast inn out) (ctrl16 (wordsN m inn 8)) True (wordsN m inn 8) out 32 m :=
  encRes_of_fast _ (wordsN_length _ _ _) (fun _ _ => rfl) (codes_ctrl16 (wordsN_length _ _ _)) hl
    (wp_conseq (put8Fast_spec (fn (wordsN m inn 8)) 0 out.off inn out m hT rfl
      (fun k hk => word_wordsN m inn 8 k hk)) (fun _ h => h) (fun _ h => h) (fun _ _ _ h => h)
      (fun _ _ _ h => ⟨h.1, h.2.1⟩))

theorem put8DeltaFast_res {inn : U32s} {out : Bytes} {m : Mem} (prev : U32) (hT : TablesLoaded m)
    (hl : 32 ≤ out.len) :
    EncRes (put8uint32DeltaFast inn out prev) (ctrl16 (delta prev (wordsN m inn 8))) True
      (delta prev (wordsN m inn 8)) out 32 m := by
  have hx : (delta prev (wordsN m inn 8)).length = 8 := by rw [delta_length, wordsN_length]
  refine encRes_of_fast _ hx (fun _ _ => rfl) (codes_ctrl16 hx) hl
    (wp_conseq (put8DeltaFast_spec (fn (delta prev (wordsN m inn 8))) (fn (wordsN m inn 8)) 0 out.off inn out prev
      m hT rfl (fun k hk => word_wordsN m inn 8 k hk) ?_ ?_) (fun _ h => h) (fun _ h => h) (fun _ _ _ h => h)
      (fun _ _ _ h => ⟨h.1, h.2.1⟩))
  · rw [← delta_wordsN_zero m inn 8 prev (by omega), wordsN_fn m inn 8 0 (by omega)]; rfl
  · intro k hk
    rw [← delta_wordsN_succ m inn 8 k prev (by omega), ← word_wordsN m inn 8 _ (by omega),
      ← word_wordsN m inn 8 _ (by omega)]

/-- The number of data bytes of `n` numbers lies between `n` and `4 n`. -/
theorem dataBytes_bounds (xs : List U32) :
    xs.length ≤ (dataBytes xs).length ∧ (dataBytes xs).length ≤ 4 * xs.length := by
  have := offs_bounds (fn xs) (Nat.zero_le xs.length)
  have z : offs (fn xs) 0 = 0 := rfl
  rw [offs_length] at this
  omega

theorem EncRes.weaken {γ : Type} {p : Prog γ} {ctl : γ} {ok : Prop} {xs : List U32} {out : Bytes} {L L' : Nat}
    {m : Mem} (h : EncRes p ctl ok xs out L m) (hok : ok) (hL : L ≤ L') : EncRes p ctl True xs out L' m :=
  ⟨fun _ => h.good hok, fun h => absurd trivial h, fun q hq => h.frame q fun h => hq ⟨h.1, h.2.1, by
    have := h.2.2; omega⟩⟩

theorem put8uint32_cases (c : Cpu) (inn : U32s) (out : Bytes) :
    put8uint32 c inn out = put8uint32Fast inn out ∨ put8uint32 c inn out = put8uint32Scalar inn out := by
  rcases c with ⟨a, b, d⟩; cases a <;> cases b <;> cases d <;> simp [put8uint32, encodeMode, onAmd64]

theorem put8uint32Delta_cases (c : Cpu) (inn : U32s) (out : Bytes) (prev : U32) :
    put8uint32Delta c inn out prev = put8uint32DeltaFast inn out prev ∨
      put8uint32Delta c inn out prev = put8uint32DeltaScalar inn out prev := by
  rcases c with ⟨a, b, d⟩; cases a <;> cases b <;> cases d <;> simp [put8uint32Delta, encodeMode, onAmd64]

/-- Eight numbers and room for 32 bytes: every variant. -/
theorem put8_res (f : Fn) {inn : U32s} {out : Bytes} {m : Mem} (h : BlockPre inn out m)
    (hi : 8 ≤ inn.len) (ho : 32 ≤ out.len) :
    EncRes (f.put8 inn out) (ctrl16 (wordsN m inn 8)) True (wordsN m inn 8) out 32 m := by
  have hb := dataBytes_bounds (wordsN m inn 8)
  rw [wordsN_length] at hb
  have hs := (put8Scalar_res h).weaken (L' := 32) ⟨hi, by omega⟩ (by omega)
  have hf := put8Fast_res (inn := inn) h.tables ho
  cases f with
  | scalar => exact hs
  | fast => exact hf
  | auto c => rcases put8uint32_cases c inn out with e | e <;> simp only [Fn.put8, e, hf, hs]

theorem put8Delta_res (f : Fn) {inn : U32s} {out : Bytes} {m : Mem} (prev : U32) (h : BlockPre inn out m)
    (hi : 8 ≤ inn.len) (ho : 32 ≤ out.len) :
    EncRes (f.put8Delta inn out prev) (ctrl16 (delta prev (wordsN m inn 8))) True
      (delta prev (wordsN m inn 8)) out 32 m := by
  have hb := dataBytes_bounds (delta prev (wordsN m inn 8))
  rw [delta_length, wordsN_length] at hb
  have hs := (put8DeltaScalar_res prev h).weaken (L' := 32) ⟨hi, by omega⟩ (by omega)
  have hf := put8DeltaFast_res (inn := inn) prev h.tables ho
  cases f with
  | scalar => exact hs
  | fast => exact hf
  | auto c => rcases put8uint32Delta_cases c inn out prev with e | e <;> simp only [Fn.put8Delta, e, hf, hs]

/-! ## Partial groups -/

theorem codes_partial {xs : List U32} {n : Nat} (hx : xs.length = n) (h4 : n ≤ 4) (v : Nat → U32)
    (hv : ∀ t < n, v t = fn xs t) (c : Byte)
    (h : ∀ k < 4, code c k + 1 = if k < n then byteLen (v (0 + k)) else 1) : c = ctrlByte xs := by
  apply byte_eq_of_codes
  intro k hk
  have h1 := h k hk
  have h2 := ctrlByte_code (g := xs) (by omega) k
  rw [Nat.zero_add] at h1
  split at h1
  · rw [hv k (by assumption)] at h1
    simp only [fn] at h1; omega
  · rw [getD_of_le _ (by omega), byteLen_zero] at h2; omega

theorem putUint32_res {inn : U32s} {out : Bytes} {m : Mem} {count : Int} {n : Nat}
    (hn : n = min count.toNat 4) (hd : Disjoint inn out) :
    EncRes (putUint32Scalar inn out count) (ctrlByte (wordsN m inn n))
      (n ≤ inn.len ∧ (dataBytes (wordsN m inn n)).length ≤ out.len) (wordsN m inn n) out
      (dataBytes (wordsN m inn n)).length m := by
  have hv : ∀ t < n, wordAt m inn.blk (inn.off + 4 * t) = fn (wordsN m inn n) t := fun t ht =>
    (wordsN_fn m inn n t ht).symm
  exact encRes_of_wp (v := fun t => wordAt m inn.blk (inn.off + 4 * t)) _ (wordsN_length _ _ _) hv
    (codes_partial (wordsN_length _ _ _) (by omega) _ hv)
    (putUint32_spec (fun t => wordAt m inn.blk (inn.off + 4 * t)) 0 out.off inn out count m n hn rfl
      (fun q hq hq' => disjoint_segs hd q hq (by rwa [Nat.one_mul]))
      (fun k hk _ => by simp only [Nat.zero_add]))

theorem putUint32Delta_res {inn : U32s} {out : Bytes} {m : Mem} {count : Int} {n : Nat} (prev : U32)
    (hn : n = min count.toNat 4) (hd : Disjoint inn out) :
    EncRes (putUint32DeltaScalar inn out count prev) (ctrlByte (delta prev (wordsN m inn n)))
      (n ≤ inn.len ∧ (dataBytes (delta prev (wordsN m inn n))).length ≤ out.len)
      (delta prev (wordsN m inn n)) out (dataBytes (delta prev (wordsN m inn n))).length m := by
  have hl : (delta prev (wordsN m inn n)).length = n := by rw [delta_length, wordsN_length]
  have hv : ∀ t < n, fn (delta prev (wordsN m inn 4)) t = fn (delta prev (wordsN m inn n)) t := by
    intro t ht
    cases t with
    | zero => rw [← delta_wordsN_zero m inn n prev ht, ← delta_wordsN_zero m inn 4 prev (by omega)]
    | succ t =>
      have h1 := delta_wordsN_succ m inn n t prev ht
      have h2 := delta_wordsN_succ m inn 4 t prev (by omega)
      rw [Nat.zero_add] at h1 h2
      rw [← h1, ← h2]
  exact encRes_of_wp (v := fn (delta prev (wordsN m inn 4))) _ hl hv
    (codes_partial hl (by omega) _ hv)
    (putUint32Delta_spec (fn (delta prev (wordsN m inn 4))) 0 out.off inn out count prev m n hn rfl
      (fun q hq hq' => disjoint_segs hd q hq (by rwa [Nat.one_mul]))
      (fun _ => delta_wordsN_zero m inn 4 prev (by omega))
      (fun k hk _ => delta_wordsN_succ m inn 4 k prev (by omega)))

/-! ## Decoders -/

/-- Announced lengths of a control value, as a function. -/
def csz (c : Nat) (k : Nat) : Nat := c / 4 ^ k % 4 + 1

/-- The number at place `t` of the data bytes in `inn`. -/
def bd (inn : Bytes) (c : Nat) (m : Mem) (t : Nat) : U32 :=
  BitVec.ofNat 32 (leNat m inn.blk (inn.off + psum (csz c) t) (csz c t))

theorem csz_bounds (c k : Nat) : 1 ≤ csz c k ∧ csz c k ≤ 4 := by unfold csz; omega

theorem codeLens_sum (n c : Nat) : (codeLens n c).sum = psum (csz c) n := sum_range_map _ n

theorem readNums_block' (m : Mem) (s : Bytes) (sz : Nat → Nat) (k i : Nat) (hi : psum sz i ≤ s.len) :
    readNums ((List.range' i k).map sz) ((bytesOf m s).drop (psum sz i)) =
      if psum sz (i + k) ≤ s.len then
        some ((List.range' i k).map fun t => BitVec.ofNat 32 (leNat m s.blk (s.off + psum sz t) (sz t)))
      else none := by
  induction k generalizing i with
  | zero =>
    simp only [List.range'_zero, List.map_nil, readNums, Nat.add_zero]
    rw [if_pos hi]
  | succ k ih =>
    rw [List.range'_succ]
    simp only [List.map_cons, readNums, List.length_drop, bytesOf_length]
    have hs : psum sz (i + 1) = psum sz i + sz i := rfl
    have hmono : psum sz (i + 1) ≤ psum sz (i + 1 + k) := psum_mono (by omega)
    split
    · rw [if_neg]
      rw [show i + (k + 1) = i + 1 + k by omega]
      omega
    · rw [List.drop_drop]
      have := ih (i + 1) (by omega)
      rw [hs] at this
      rw [this, show i + (k + 1) = i + 1 + k by omega]
      split
      · simp only [Option.map_some]
        rw [leValue_take _ _ _ _ (by omega)]
      · rfl

theorem readNums_block (m : Mem) (s : Bytes) (n c : Nat) :
    readNums (codeLens n c) (bytesOf m s) =
      if (codeLens n c).sum ≤ s.len then some ((List.range n).map (bd s c m)) else none := by
  have := readNums_block' m s (csz c) n 0 (by simp)
  rw [codeLens_sum]
  simp only [psum_zero, List.drop_zero, Nat.zero_add, ← List.range_eq_range'] at this
  exact this

theorem bd_dec (inn : Bytes) (c : Nat) (m : Mem) (t : Nat) :
    leNat m inn.blk (inn.off + psum (csz c) t) (csz c t) = (bd inn c m t).toNat := by
  rw [bd, BitVec.toNat_ofNat, Nat.mod_eq_of_lt]
  exact leNat_lt32 _ _ _ _ (csz_bounds c t).2

/-- Result of a block decoder: the numbers `ys` in the first `n` elements of `out` if `ok`, a bounds
panic otherwise; nothing else written. -/
structure DecRes {γ : Type} (p : Prog γ) (r : γ) (ok : Prop) (ys : List U32) (out : U32s) (n : Nat)
    (m : Mem) : Prop where
  good : ok → ∃ m', run p m = (.ok r, m') ∧ wordsN m' out n = ys
  bad : ¬ ok → ∃ k m', run p m = (.panic k, m') ∧ BoundsPanic k
  frame : ∀ q, ¬ inFirst out n q → (run p m).2 q = m q

theorem DecRes.imp1 {γ : Type} {p : Prog γ} {r : γ} {ys : List U32} {out : U32s} {n : Nat} {m : Mem}
    (h : DecRes p r True ys out n m) :
    (∃ m', run p m = (.ok r, m') ∧ wordsN m' out n = ys) ∧ True ∧
      ∀ q, ¬ inFirst out n q → (run p m).2 q = m q :=
  ⟨h.good trivial, trivial, h.frame⟩

theorem decRes_of_wp {γ : Type} {p : Prog γ} {r : γ} {inn : Bytes} {out : U32s} {n : Nat} {m : Mem}
    {sz : Nat → Nat} {y : Nat → U32} {R : Ptr → Prop} (C : γ → Prop) (hC : ∀ c, C c → c = r)
    (h : wp ⟨R, Seg out.blk out.off (out.off + 4 * n),
        fun k _ => boundsPanic k ∧ ¬ (n ≤ out.len ∧ inn.off + psum sz (0 + n) ≤ inn.off + inn.len)⟩ p m
      (fun c m' => C c ∧ n ≤ out.len ∧ inn.off + psum sz (0 + n) ≤ inn.off + inn.len ∧
        ∀ k < n, wordAt m' out.blk (out.off + 4 * k) = y (0 + k))) :
    DecRes p r (n ≤ out.len ∧ psum sz n ≤ inn.len) ((List.range n).map y) out n m := by
  simp only [Nat.zero_add] at h
  obtain ⟨h1, h2, -⟩ := run_of_wp' h
  refine ⟨fun ok => ?_, fun bad => ?_, fun q hq => h2 q (fun h => hq h)⟩
  · rcases h1 with ⟨c, m', hr, hc, -, -, hw⟩ | ⟨k, m', -, -, hk⟩
    · obtain rfl := hC c hc
      exact ⟨m', hr, wordsN_eq hw⟩
    · exact absurd ⟨ok.1, by omega⟩ hk
  · rcases h1 with ⟨c, m', hr, -, h3, h4, -⟩ | ⟨k, m', hr, hk, -⟩
    · exact absurd ⟨h3, by omega⟩ bad
    · exact ⟨k, m', hr, hk⟩

theorem disj_read {inn : Bytes} {out : U32s} (h : Disjoint inn out) (q : Ptr)
    (h1 : Seg inn.blk inn.off (inn.off + inn.len) q) : ¬ Seg out.blk out.off (out.off + 4 * out.len) q :=
  disjoint_segs h q (by rwa [Nat.one_mul])

theorem sizes_csz (c : Byte) : Sizes c (csz c.toNat) 0 := ⟨fun k _ => by rw [Nat.zero_add]; rfl⟩

theorem get4_res {inn : Bytes} {out : U32s} {m : Mem} (c : Byte) (h : BlockPre inn out m) :
    DecRes (get4uint32Scalar inn out c) () (4 ≤ out.len ∧ psum (csz c.toNat) 4 ≤ inn.len)
      ((List.range 4).map (bd inn c.toNat m)) out 4 m := by
  refine decRes_of_wp (fun _ => True) (fun _ _ => rfl)
    (wp_mono (get4_spec (csz c.toNat) (bd inn c.toNat m) 0 inn.off inn out c m h.tables (sizes_csz c) rfl
      (fun _ t _ _ => bd_dec _ _ _ t) ?_) fun _ _ h => ⟨trivial, h⟩)
  intro h1 h2 q hq hq'
  refine disj_read h.disj q ⟨hq.1, hq.2.1, ?_⟩ ⟨hq'.1, hq'.2.1, ?_⟩
  · have := hq.2.2; omega
  · have := hq'.2.2; omega

theorem ysum_zero' (d : Nat → U32) (prev : U32) : ysum d prev 0 = d 0 + prev := ysum_pv d prev 0
theorem ysum_succ' (d : Nat → U32) (prev : U32) (k : Nat) :
    ysum d prev (0 + (k + 1)) = d (0 + (k + 1)) + ysum d prev (0 + k) := by
  rw [ysum_pv, Nat.zero_add, pv_succ, Nat.zero_add]

theorem get4Delta_res {inn : Bytes} {out : U32s} {m : Mem} (c : Byte) (prev : U32) (h : BlockPre inn out m) :
    DecRes (get4uint32DeltaScalar inn out c prev) () (4 ≤ out.len ∧ psum (csz c.toNat) 4 ≤ inn.len)
      ((List.range 4).map (ysum (bd inn c.toNat m) prev)) out 4 m := by
  refine decRes_of_wp (fun _ => True) (fun _ _ => rfl)
    (wp_mono (get4Delta_spec (csz c.toNat) (bd inn c.toNat m) (ysum (bd inn c.toNat m) prev) 0 inn.off inn out
      c prev m h.tables (sizes_csz c) rfl
      (fun _ t _ _ => bd_dec _ _ _ t) ?_ (ysum_zero' _ _) (fun k _ => ysum_succ' _ _ k)) fun _ _ h => ⟨trivial, h⟩)
  intro h1 h2 q hq hq'
  refine disj_read h.disj q ⟨hq.1, hq.2.1, ?_⟩ ⟨hq'.1, hq'.2.1, ?_⟩
  · have := hq.2.2; omega
  · have := hq'.2.2; omega

theorem get8Scalar_res {inn : Bytes} {out : U32s} {m : Mem} (c : U16) (h : BlockPre inn out m) :
    DecRes (get8uint32Scalar inn out c) () (8 ≤ out.len ∧ psum (csz c.toNat) 8 ≤ inn.len)
      ((List.range 8).map (bd inn c.toNat m)) out 8 m :=
  decRes_of_wp (fun _ => True) (fun _ _ => rfl)
    (wp_mono (get8_spec (csz c.toNat) (bd inn c.toNat m) 0 inn.off inn out c m h.tables h.heap
      (fun k _ => by rw [Nat.zero_add]; rfl) rfl
      (fun t _ _ _ => bd_dec _ _ _ t) (disj_read h.disj)) fun _ _ h => ⟨trivial, h⟩)

theorem get8DeltaScalar_res {inn : Bytes} {out : U32s} {m : Mem} (c : U16) (prev : U32)
    (h : BlockPre inn out m) :
    DecRes (get8uint32DeltaScalar inn out c prev) () (8 ≤ out.len ∧ psum (csz c.toNat) 8 ≤ inn.len)
      ((List.range 8).map (ysum (bd inn c.toNat m) prev)) out 8 m :=
  decRes_of_wp (fun _ => True) (fun _ _ => rfl)
    (wp_mono (get8Delta_spec (csz c.toNat) (bd inn c.toNat m) (ysum (bd inn c.toNat m) prev) 0 inn.off inn out c
      prev m h.tables h.heap
      (fun k _ => by rw [Nat.zero_add]; rfl) rfl
      (fun t _ _ _ => bd_dec _ _ _ t) (disj_read h.disj) (ysum_zero' _ _) (fun k _ => ysum_succ' _ _ k))
      fun _ _ h => ⟨trivial, h⟩)

theorem decRes_of_fast {p : Prog Unit} {out : U32s} {m : Mem}
    {sz : Nat → Nat} {y : Nat → U32} {R : Ptr → Prop} {B lim : Nat} (hlim : B + psum sz 8 ≤ lim)
    (h : wp ⟨R, Seg out.blk out.off (out.off + 32), fun _ _ => False⟩ p m
      (fun _ m' => ∀ k < 8, B + psum sz (0 + k + 1) ≤ lim → wordAt m' out.blk (out.off + 4 * k) = y (0 + k))) :
    DecRes p () True ((List.range 8).map y) out 8 m := by
  simp only [Nat.zero_add] at h
  obtain ⟨c, m', hr, hw, hf, -⟩ := run_of_wp h (fun _ _ h => h)
  refine ⟨fun _ => ⟨m', hr, wordsN_eq fun k hk => hw k hk ?_⟩, fun h => absurd trivial h, fun q hq => ?_⟩
  · have := psum_mono (f := sz) (show k + 1 ≤ 8 by omega); omega
  · rw [hr]; exact hf q fun h => hq h

theorem get8Fast_res {inn : Bytes} {out : U32s} {m : Mem} (c : U16) (hT : TablesLoaded m) :
    DecRes (get8uint32Fast inn out c) () True ((List.range 8).map (bd inn c.toNat m)) out 8 m :=
  decRes_of_fast (Nat.le_refl _)
    (get8Fast_spec (csz c.toNat) (bd inn c.toNat m) 0 inn.off _ inn out c m hT
      (fun k _ => by rw [Nat.zero_add]; rfl) rfl (fun t _ _ _ => bd_dec _ _ _ t))

theorem get8DeltaFast_res {inn : Bytes} {out : U32s} {m : Mem} (c : U16) (prev : U32) (hT : TablesLoaded m) :
    DecRes (get8uint32DeltaFast inn out c prev) () True
      ((List.range 8).map (ysum (bd inn c.toNat m) prev)) out 8 m :=
  decRes_of_fast (Nat.le_refl _)
    (get8DeltaFast_spec (csz c.toNat) (bd inn c.toNat m) (ysum (bd inn c.toNat m) prev) 0 inn.off _ inn out c prev
      m hT (fun k _ => by rw [Nat.zero_add]; rfl) rfl (fun t _ _ _ => bd_dec _ _ _ t)
      (fun _ => ysum_zero' _ _) (fun k _ => ysum_succ' _ _ k))

theorem get8uint32_cases (c : Cpu) (inn : Bytes) (out : U32s) (ctrl : U16) :
    get8uint32 c inn out ctrl = get8uint32Fast inn out ctrl ∨
      get8uint32 c inn out ctrl = get8uint32Scalar inn out ctrl := by
  rcases c with ⟨a, b, d⟩; cases a <;> cases b <;> cases d <;> simp [get8uint32, decodeMode, onAmd64]

theorem get8uint32Delta_cases (c : Cpu) (inn : Bytes) (out : U32s) (ctrl : U16) (prev : U32) :
    get8uint32Delta c inn out ctrl prev = get8uint32DeltaFast inn out ctrl prev ∨
      get8uint32Delta c inn out ctrl prev = get8uint32DeltaScalar inn out ctrl prev := by
  rcases c with ⟨a, b, d⟩; cases a <;> cases b <;> cases d <;> simp [get8uint32Delta, decodeMode, onAmd64]

theorem DecRes.weaken {γ : Type} {p : Prog γ} {r : γ} {ok : Prop} {ys : List U32} {out : U32s} {n : Nat} {m : Mem}
    (h : DecRes p r ok ys out n m) (hok : ok) : DecRes p r True ys out n m :=
  ⟨fun _ => h.good hok, fun h => absurd trivial h, h.frame⟩

theorem csz_sum_le (c n : Nat) : psum (csz c) n ≤ 4 * n := by
  have := psum_bounds (csz_bounds c) (Nat.zero_le n)
  simp only [psum_zero] at this; omega

theorem get8_res (f : Fn) {inn : Bytes} {out : U32s} {m : Mem} (c : U16) (h : BlockPre inn out m)
    (hi : psum (csz c.toNat) 8 ≤ inn.len) (ho : 8 ≤ out.len) :
    DecRes (f.get8 inn out c) () True ((List.range 8).map (bd inn c.toNat m)) out 8 m := by
  have hs := (get8Scalar_res c h).weaken ⟨ho, hi⟩
  have hf := get8Fast_res (inn := inn) (out := out) c h.tables
  cases f with
  | scalar => exact hs
  | fast => exact hf
  | auto k => rcases get8uint32_cases k inn out c with e | e <;> simp only [Fn.get8, e, hf, hs]

theorem get8Delta_res (f : Fn) {inn : Bytes} {out : U32s} {m : Mem} (c : U16) (prev : U32)
    (h : BlockPre inn out m) (hi : psum (csz c.toNat) 8 ≤ inn.len) (ho : 8 ≤ out.len) :
    DecRes (f.get8Delta inn out c prev) () True ((List.range 8).map (ysum (bd inn c.toNat m) prev)) out 8 m := by
  have hs := (get8DeltaScalar_res c prev h).weaken ⟨ho, hi⟩
  have hf := get8DeltaFast_res (inn := inn) (out := out) c prev h.tables
  cases f with
  | scalar => exact hs
  | fast => exact hf
  | auto k => rcases get8uint32Delta_cases k inn out c prev with e | e <;> simp only [Fn.get8Delta, e, hf, hs]

theorem getUint32_res {inn : Bytes} {out : U32s} {m : Mem} (c : Byte) {count : Int} {n : Nat}
    (hn : n = min count.toNat 4) (hd : Disjoint inn out) :
    DecRes (getUint32Scalar inn out c count) (psum (csz c.toNat) n : Int)
      (n ≤ out.len ∧ psum (csz c.toNat) n ≤ inn.len) ((List.range n).map (bd inn c.toNat m)) out n m := by
  refine decRes_of_wp (fun r => r + (psum (csz c.toNat) 0 : Int) = (psum (csz c.toNat) (0 + n) : Int))
    (fun r h => by simpa using h)
    (getUint32_spec (csz c.toNat) (bd inn c.toNat m) 0 inn.off inn out c count m n hn
      (fun k _ => by rw [Nat.zero_add]; rfl) rfl (fun t _ _ _ => bd_dec _ _ _ t) ?_)
  intro q hq hq'
  exact disj_read hd q hq ⟨hq'.1, hq'.2.1, by have := hq'.2.2; omega⟩

theorem getUint32Delta_res {inn : Bytes} {out : U32s} {m : Mem} (c : Byte) (prev : U32) {count : Int} {n : Nat}
    (hn : n = min count.toNat 4) (hd : Disjoint inn out) :
    DecRes (getUint32DeltaScalar inn out c count prev) (psum (csz c.toNat) n : Int)
      (n ≤ out.len ∧ psum (csz c.toNat) n ≤ inn.len) ((List.range n).map (ysum (bd inn c.toNat m) prev)) out n m := by
  refine decRes_of_wp (fun r => r + (psum (csz c.toNat) 0 : Int) = (psum (csz c.toNat) (0 + n) : Int))
    (fun r h => by simpa using h)
    (getUint32Delta_spec (csz c.toNat) (bd inn c.toNat m) (ysum (bd inn c.toNat m) prev) 0 inn.off inn out c count
      prev m n hn
      (fun k _ => by rw [Nat.zero_add]; rfl) rfl (fun t _ _ _ => bd_dec _ _ _ t) ?_
      (fun _ => ysum_zero' _ _) (fun k _ _ => ysum_succ' _ _ k))
  intro q hq hq'
  exact disj_read hd q hq ⟨hq'.1, hq'.2.1, by have := hq'.2.2; omega⟩

/-! ## Sizes, and encoding followed by decoding -/

theorem controlByteToSize_run (c : Byte) {m : Mem} (hT : TablesLoaded m) :
    run (controlByteToSize c) m = (.ok ((codeLens 4 c.toNat).sum : Int), m) := by
  obtain ⟨s, m', hr, ⟨rfl, rfl⟩, -⟩ := run_of_wp (controlByteToSize_spec c m hT) (fun _ _ h => h)
  rw [hr, codeLens_sum]
  simp only [psum, csz, gSize, code, Nat.zero_add]

theorem controlByteToSizeTwo_run (c : U16) {m : Mem} (hT : TablesLoaded m) :
    run (controlByteToSizeTwo c) m = (.ok ((codeLens 8 c.toNat).sum : Int), m) := by
  obtain ⟨s, m', hr, ⟨rfl, rfl⟩, -⟩ := run_of_wp (controlByteToSizeTwo_spec c m hT) (fun _ _ h => h)
  rw [hr, codeLens_sum]
  have : gSize (lo8 c) + gSize (hi8 c) = psum (csz c.toNat) 8 := by
    have lo : ∀ k < 4, code (lo8 c) k + 1 = csz c.toNat k := fun k hk => by
      rw [lo8, code16_lo c k hk]; rfl
    have hi : ∀ k < 4, code (hi8 c) k + 1 = csz c.toNat (k + 4) := fun k hk => by
      rw [hi8, code16_hi c k hk]; rfl
    rw [gSize, gSize, lo 0 (by omega), lo 1 (by omega), lo 2 (by omega), lo 3 (by omega), hi 0 (by omega),
      hi 1 (by omega), hi 2 (by omega), hi 3 (by omega)]
    simp only [psum, Nat.zero_add, ← Nat.add_assoc]
  rw [this]

theorem codeLens_ctrlNat (xs : List U32) : codeLens xs.length (ctrlNat xs) = xs.map byteLen := by
  apply List.ext_getElem
  · simp [codeLens]
  · intro k h1 h2
    simp only [codeLens, List.length_map, List.length_range] at h1
    simp only [codeLens, List.getElem_map, List.getElem_range]
    rw [ctrlNat_code, getD_eq_getElem' _ h1]

theorem dataBytes_len_sum (xs : List U32) : (dataBytes xs).length = (xs.map byteLen).sum := by
  induction xs with
  | nil => rfl
  | cons x xs ih =>
    have : dataBytes (x :: xs) = leBytes x ++ dataBytes xs := rfl
    rw [this, List.length_append, leBytes_length, ih]; rfl

/-- Missing numbers of a group are announced with length 1. -/
theorem codeLens_partial (xs : List U32) (j : Nat) :
    (codeLens (xs.length + j) (ctrlNat xs)).sum = (dataBytes xs).length + j := by
  induction j with
  | zero => rw [Nat.add_zero, codeLens_ctrlNat, dataBytes_len_sum]; rfl
  | succ j ih =>
    rw [codeLens_sum] at *
    rw [show xs.length + (j + 1) = (xs.length + j) + 1 by omega, psum_succ, ih, csz, ctrlNat_code,
      getD_of_le _ (by omega), byteLen_zero]
    omega

theorem block_back {m : Mem} {buf : Bytes} {xs : List U32} {n : Nat} (hn : xs.length = n)
    (h : (bytesOf m buf).take (dataBytes xs).length = dataBytes xs) :
    psum (csz (ctrlNat xs)) n ≤ buf.len ∧ (List.range n).map (bd buf (ctrlNat xs) m) = xs := by
  have h1 := readNums_data xs ((bytesOf m buf).drop (dataBytes xs).length)
  have e : bytesOf m buf = dataBytes xs ++ (bytesOf m buf).drop (dataBytes xs).length := by
    conv => lhs; rw [← List.take_append_drop (dataBytes xs).length (bytesOf m buf), h]
  have h2 := readNums_block m buf n (ctrlNat xs)
  rw [e, ← hn, codeLens_ctrlNat, h1, ← codeLens_ctrlNat, hn] at h2
  split at h2
  · rw [codeLens_sum] at *
    simp only [Option.some.injEq] at h2
    exact ⟨by assumption, h2.symm⟩
  · cases h2

theorem tables_after {out : Bytes} {L : Nat} {m m' : Mem} (hT : TablesLoaded m) (hh : out.blk.isConst = false)
    (hf : ∀ q, ¬ Seg out.blk out.off (out.off + L) q → m' q = m q) : TablesLoaded m' :=
  hT.frame fun q hq => hf q fun hs => by
    rw [hs.1, hh] at hq
    exact absurd hq (by decide)

end SVB
