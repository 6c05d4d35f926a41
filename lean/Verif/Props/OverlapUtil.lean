import Verif.Proofs.OverlapUtil
import Verif.Props.Util

/-!
# C79: the functions of package `util` on arguments that share memory

`PutVarint` reads number `n` after it has written the varints of the numbers before it, `PutDeltaVarint` reads it once more
after it has written its varint, `GetVarint` and `GetDeltaVarint` read varint `n` after they have stored `n` numbers, and
`Delta` reads numbers `n` and `n - 1` after it has stored `n` numbers.  The results are right whenever nothing is overwritten
before that.
-/

set_option autoImplicit false

namespace SVB.Props
open Spec

private theorem put_outcome {p : Prog Int} {nums : U32s} {out : Bytes} {m : Mem} {ys : List U32}
    (hy : ys.length = nums.len) (h : wp (vctx nums out ys) p m (fun r m' => VI out ys m nums.len r m')) :
    (varintSize ys ≤ out.len → ∃ m', run p m = (.ok (varintSize ys), m') ∧
      bytesOf m' ⟨out.blk, out.off, varintSize ys, out.cap⟩ = varintsOf ys ∧
      ∀ q, ¬ inPrefix out (varintSize ys) q → m' q = m q) ∧
    (out.len < varintSize ys → ∃ m', run p m = (.panic .index, m') ∧ ∀ q, ¬ inSlice out q → m' q = m q) := by
  obtain ⟨h1, h2, h3⟩ := run_of_wp' h
  have ht : ys.take nums.len = ys := by rw [← hy, List.take_length]
  rcases h1 with ⟨r, m', hr, hI⟩ | ⟨k, m', hr, rfl, hk⟩
  · have hroom := hI.room
    have hp := hI.hpos
    have hb := hI.bytes
    have hf := hI.frame
    rw [ht] at hroom hp hb hf
    refine ⟨fun _ => ⟨m', by rw [hr, hp]; rfl, hb, fun q hq => hf q fun h => hq ?_⟩, fun h => ?_⟩
    · exact ⟨h.1, h.2.1, by have := h.2.2; rw [varintSize]; omega⟩
    · rw [varintSize] at h; omega
  · refine ⟨fun h => ?_, fun _ => ⟨m', hr, fun q hq => ?_⟩⟩
    · rw [varintSize] at h; omega
    · have := h2 q fun h => hq ⟨h.1, h.2.1, by have := h.2.2; omega⟩
      rw [hr] at this; exact this

/-! ## Writing -/

/-- C79: `PutVarint` gives the result of C32 if the varints of the first `n` numbers do not reach number `n`. -/
theorem C79_putVarint {nums : U32s} {out : Bytes} {m : Mem} (ho : out.len < 2 ^ 62)
    (hA : ∀ n < nums.len, Clear nums n out (varintSize ((wordsOf m nums).take n))) :
    (varintSize (wordsOf m nums) ≤ out.len →
      ∃ m', run (putVarint nums out) m = (.ok (varintSize (wordsOf m nums)), m') ∧
        bytesOf m' ⟨out.blk, out.off, varintSize (wordsOf m nums), out.cap⟩ = varintsOf (wordsOf m nums) ∧
        ∀ q, ¬ inPrefix out (varintSize (wordsOf m nums)) q → m' q = m q) ∧
    (out.len < varintSize (wordsOf m nums) →
      ∃ m', run (putVarint nums out) m = (.panic .index, m') ∧ ∀ q, ¬ inSlice out q → m' q = m q) :=
  put_outcome (wordsOf_length m nums) (putVarint_over ho hA)

/-- C79: `PutDeltaVarint` gives the result of C32 if the varints of the first `n + 1` differences do not reach number `n`. -/
theorem C79_putDeltaVarint {nums : U32s} {out : Bytes} {m : Mem} (prev : U32) (ho : out.len < 2 ^ 62)
    (hA : ∀ n < nums.len, Clear nums n out (varintSize ((delta prev (wordsOf m nums)).take (n + 1)))) :
    (varintSize (delta prev (wordsOf m nums)) ≤ out.len →
      ∃ m', run (putDeltaVarint nums out prev) m = (.ok (varintSize (delta prev (wordsOf m nums))), m') ∧
        bytesOf m' ⟨out.blk, out.off, varintSize (delta prev (wordsOf m nums)), out.cap⟩ =
          varintsOf (delta prev (wordsOf m nums)) ∧
        ∀ q, ¬ inPrefix out (varintSize (delta prev (wordsOf m nums))) q → m' q = m q) ∧
    (out.len < varintSize (delta prev (wordsOf m nums)) →
      ∃ m', run (putDeltaVarint nums out prev) m = (.panic .index, m') ∧ ∀ q, ¬ inSlice out q → m' q = m q) :=
  put_outcome (by rw [delta_length, wordsOf_length]) (putDeltaVarint_over prev ho hA)

/-- Numbers below 2^28 take at most four bytes each. -/
private theorem size_small {xs : List U32} (h : ∀ x ∈ xs, x.toNat < 2 ^ 28) : varintSize xs ≤ 4 * xs.length := by
  unfold varintSize
  induction xs with
  | nil => simp [varintsOf]
  | cons x xs ih =>
    have e : varintsOf (x :: xs) = varint x.toNat ++ varintsOf xs := rfl
    have h1 := varint_length_le (k := 3) (n := x.toNat) (by have := h x (by simp); omega)
    have h2 := ih fun y hy => h y (by simp [hy])
    rw [e, List.length_append, List.length_cons]
    omega

/-- C79: numbers below 2^28 can be encoded by `PutVarint` in their own place: `out` begins where `nums` begins and has the same
size. -/
theorem C79_putVarint_inplace {nums : U32s} {out : Bytes} {m : Mem} (ho : out.len < 2 ^ 62) (hoff : out.off = nums.off)
    (hlen : out.len = 4 * nums.len) (hx : ∀ x ∈ wordsOf m nums, x.toNat < 2 ^ 28) :
    ∃ m', run (putVarint nums out) m = (.ok (varintSize (wordsOf m nums)), m') ∧
      bytesOf m' ⟨out.blk, out.off, varintSize (wordsOf m nums), out.cap⟩ = varintsOf (wordsOf m nums) ∧
      ∀ q, ¬ inPrefix out (varintSize (wordsOf m nums)) q → m' q = m q := by
  have hl := wordsOf_length m nums
  refine (C79_putVarint ho fun n hn => .inr (.inl ?_)).1 ?_
  · have := size_small (xs := (wordsOf m nums).take n) fun x h => hx x (List.mem_of_mem_take h)
    rw [List.length_take] at this
    omega
  · have := size_small hx
    omega

/-- C79: differences below 2^28 can be encoded by `PutDeltaVarint` in the place of the numbers if `out` begins four bytes
before them. -/
theorem C79_putDeltaVarint_inplace {nums : U32s} {out : Bytes} {m : Mem} (prev : U32) (ho : out.len < 2 ^ 62)
    (hoff : out.off + 4 = nums.off) (hlen : out.len = 4 * nums.len)
    (hx : ∀ x ∈ delta prev (wordsOf m nums), x.toNat < 2 ^ 28) :
    ∃ m', run (putDeltaVarint nums out prev) m = (.ok (varintSize (delta prev (wordsOf m nums))), m') ∧
      bytesOf m' ⟨out.blk, out.off, varintSize (delta prev (wordsOf m nums)), out.cap⟩ =
        varintsOf (delta prev (wordsOf m nums)) ∧
      ∀ q, ¬ inPrefix out (varintSize (delta prev (wordsOf m nums))) q → m' q = m q := by
  have hl : (delta prev (wordsOf m nums)).length = nums.len := by rw [delta_length, wordsOf_length]
  refine (C79_putDeltaVarint prev ho fun n hn => .inr (.inl ?_)).1 ?_
  · have := size_small (xs := (delta prev (wordsOf m nums)).take (n + 1)) fun x h => hx x (List.mem_of_mem_take h)
    rw [List.length_take] at this
    omega
  · have := size_small hx
    omega

private theorem small3 {a b c : U32} (ha : a.toNat < 2 ^ 28) (hb : b.toNat < 2 ^ 28) (hc : c.toNat < 2 ^ 28) :
    ∀ x ∈ [a, b, c], x.toNat < 2 ^ 28 := by
  simp only [List.mem_cons, List.not_mem_nil, or_false]
  rintro x (rfl | rfl | rfl) <;> assumption

-- Three numbers at the beginning of a block, encoded in place.
example : ∃ m', run (putVarint ⟨.heap 0, 0, 3, 3⟩ ⟨.heap 0, 0, 12, 12⟩) (memWith [5, 300, 0x0FFFFFFF] []) = (.ok 7, m') ∧
    bytesOf m' ⟨.heap 0, 0, 7, 12⟩ = [5, 0xAC, 2, 0xFF, 0xFF, 0xFF, 0x7F] := by
  have w : wordsOf (memWith [5, 300, 0x0FFFFFFF] []) ⟨.heap 0, 0, 3, 3⟩ = [5, 300, 0x0FFFFFFF] := by decide +kernel
  obtain ⟨m', h1, h2, -⟩ := C79_putVarint_inplace (nums := ⟨.heap 0, 0, 3, 3⟩) (out := ⟨.heap 0, 0, 12, 12⟩)
    (m := memWith [5, 300, 0x0FFFFFFF] []) (by decide) rfl rfl (by rw [w]; exact small3 (by decide) (by decide) (by decide))
  rw [w, show varintSize [5, 300, 0x0FFFFFFF] = 7 by decide +kernel] at h1 h2
  exact ⟨m', h1, h2.trans (by decide +kernel)⟩

-- The same for the differences 1, 2, 300 of 1, 3, 303, with `out` four bytes before the numbers.
example : ∃ m', run (putDeltaVarint ⟨.heap 0, 4, 3, 3⟩ ⟨.heap 0, 0, 12, 16⟩ 0) (memWith [9, 1, 3, 303] []) = (.ok 4, m') ∧
    bytesOf m' ⟨.heap 0, 0, 4, 16⟩ = [1, 2, 0xAC, 2] := by
  have w : delta 0 (wordsOf (memWith [9, 1, 3, 303] []) ⟨.heap 0, 4, 3, 3⟩) = [1, 2, 300] := by decide +kernel
  obtain ⟨m', h1, h2, -⟩ := C79_putDeltaVarint_inplace (nums := ⟨.heap 0, 4, 3, 3⟩) (out := ⟨.heap 0, 0, 12, 16⟩)
    (m := memWith [9, 1, 3, 303] []) 0 (by decide) rfl rfl (by rw [w]; exact small3 (by decide) (by decide) (by decide))
  rw [w, show varintSize [1, 2, 300] = 4 by decide +kernel] at h1 h2
  exact ⟨m', h1, h2.trans (by decide +kernel)⟩

/-- C79: a larger number breaks it: its fifth byte falls on the number after it. -/
theorem C79_putVarint_inplace_wrong : ∃ m : Mem,
    (run (putVarint ⟨.heap 0, 0, 3, 3⟩ ⟨.heap 0, 0, 12, 12⟩) m).1 = .ok 7 ∧ wordsOf m ⟨.heap 0, 0, 3, 3⟩ = [0x10000000, 0, 1] ∧
    bytesOf (run (putVarint ⟨.heap 0, 0, 3, 3⟩ ⟨.heap 0, 0, 12, 12⟩) m).2 ⟨.heap 0, 0, 7, 12⟩ ≠
      varintsOf [0x10000000, 0, 1] :=
  ⟨memWith [0x10000000, 0, 1] [], by decide +kernel, by decide +kernel, by decide +kernel⟩

/-- C79: `PutDeltaVarint` in place is wrong for small numbers too: number `n` is read again after its varint is written. -/
theorem C79_putDeltaVarint_inplace_wrong : ∃ m : Mem,
    (run (putDeltaVarint ⟨.heap 0, 0, 2, 2⟩ ⟨.heap 0, 0, 8, 8⟩ 1) m).1 = .ok 2 ∧ wordsOf m ⟨.heap 0, 0, 2, 2⟩ = [2, 3] ∧
    bytesOf (run (putDeltaVarint ⟨.heap 0, 0, 2, 2⟩ ⟨.heap 0, 0, 8, 8⟩ 1) m).2 ⟨.heap 0, 0, 2, 8⟩ = [1, 2] ∧
    varintsOf (delta 1 [2, 3]) = [1, 1] :=
  ⟨memWith [2, 3] [], by decide +kernel, by decide +kernel, by decide +kernel, by decide +kernel⟩

/-! ## Reading -/

private theorem get_outcome {upd : U32 → U32 → U32} {data : Bytes} {out : U32s} {m : Mem} {xs : List U32} {prev : U32}
    (hlen : data.len < 2 ^ 62) (hx : bytesOf m data = varintsOf xs) (hroom : xs.length ≤ out.len)
    (hA : ∀ n < xs.length, Unread data (varintSize (xs.take n)) out n) :
    ∃ m', run ((loop (out.len + 1) (fun s : Int × Int × U32 => decide (s.1 < data.len)) (getGen upd data out)
        (0, 0, prev)).bind fun s => .ret s.1) m = (.ok data.len, m') ∧ wordsN m' out xs.length = scan upd prev xs ∧
      ∀ q, ¬ inFirst out xs.length q → m' q = m q := by
  obtain ⟨h1, -, -⟩ := run_of_wp' (getGen_over (upd := upd) prev hlen hx hroom hA)
  rcases h1 with ⟨s, m', hr, h2, h3, h4⟩ | ⟨k, m', hr, hk⟩
  · refine ⟨m', ?_, h3, h4⟩
    rw [run_bind, hr, ← h2]; rfl
  · exact hk.elim

/-- C79: `GetVarint` decodes the varints of `xs` if the first `n` numbers do not reach varint `n`. -/
theorem C79_getVarint {data : Bytes} {out : U32s} {m : Mem} {xs : List U32} (hlen : data.len < 2 ^ 62)
    (hx : bytesOf m data = varintsOf xs) (hroom : xs.length ≤ out.len)
    (hA : ∀ n < xs.length, Unread data (varintSize (xs.take n)) out n) :
    ∃ m', run (getVarint data out) m = (.ok data.len, m') ∧ wordsN m' out xs.length = xs ∧
      ∀ q, ¬ inFirst out xs.length q → m' q = m q := by
  rw [getVarint_gen]
  obtain ⟨m', h1, h2, h3⟩ := get_outcome (upd := fun d _ => d) (prev := 0) hlen hx hroom hA
  exact ⟨m', h1, by rw [h2, scan_plain], h3⟩

/-- C79: the same for `GetDeltaVarint`. -/
theorem C79_getDeltaVarint {data : Bytes} {out : U32s} {m : Mem} {ds : List U32} (prev : U32) (hlen : data.len < 2 ^ 62)
    (hx : bytesOf m data = varintsOf ds) (hroom : ds.length ≤ out.len)
    (hA : ∀ n < ds.length, Unread data (varintSize (ds.take n)) out n) :
    ∃ m', run (getDeltaVarint data out prev) m = (.ok data.len, m') ∧ wordsN m' out ds.length = undelta prev ds ∧
      ∀ q, ¬ inFirst out ds.length q → m' q = m q := by
  rw [getDeltaVarint_gen]
  obtain ⟨m', h1, h2, h3⟩ := get_outcome (upd := fun d p => d + p) (prev := prev) hlen hx hroom hA
  exact ⟨m', h1, by rw [h2, scan_delta], h3⟩

private theorem unread_end {data : Bytes} {out : U32s} {xs : List U32} (hl : data.len = varintSize xs)
    (hend : data.off + data.len = out.off + 4 * xs.length) (hs : ∀ x ∈ xs, x.toNat < 2 ^ 28) (n : Nat)
    (hn : n < xs.length) : Unread data (varintSize (xs.take n)) out n := by
  refine .inr (.inl ?_)
  have h1 := size_small (xs := xs.drop n) fun x h => hs x (List.mem_of_mem_drop h)
  have h2 : varintSize xs = varintSize (xs.take n) + varintSize (xs.drop n) := by
    rw [varintSize, varintSize, varintSize, ← List.length_append, ← varintsOf_append, List.take_append_drop]
  rw [List.length_drop] at h1
  omega

/-- C79: the varints of numbers below 2^28 can be decoded by `GetVarint` into a slice at whose end they lie. -/
theorem C79_getVarint_inplace {data : Bytes} {out : U32s} {m : Mem} {xs : List U32} (hlen : data.len < 2 ^ 62)
    (hx : bytesOf m data = varintsOf xs) (hroom : out.len = xs.length) (hend : data.off + data.len = out.off + 4 * out.len)
    (hs : ∀ x ∈ xs, x.toNat < 2 ^ 28) :
    ∃ m', run (getVarint data out) m = (.ok data.len, m') ∧ wordsOf m' out = xs ∧
      ∀ q, ¬ inSlice out q → m' q = m q := by
  have hl : data.len = varintSize xs := by rw [varintSize, ← hx]; simp [bytesOf]
  obtain ⟨m', h1, h2, h3⟩ := C79_getVarint (out := out) hlen hx (by omega) (unread_end hl (by omega) hs)
  rw [← hroom] at h2 h3
  exact ⟨m', h1, h2, h3⟩

/-- C79: the same for `GetDeltaVarint`, for differences below 2^28. -/
theorem C79_getDeltaVarint_inplace {data : Bytes} {out : U32s} {m : Mem} {ds : List U32} (prev : U32)
    (hlen : data.len < 2 ^ 62) (hx : bytesOf m data = varintsOf ds) (hroom : out.len = ds.length)
    (hend : data.off + data.len = out.off + 4 * out.len) (hs : ∀ x ∈ ds, x.toNat < 2 ^ 28) :
    ∃ m', run (getDeltaVarint data out prev) m = (.ok data.len, m') ∧ wordsOf m' out = undelta prev ds ∧
      ∀ q, ¬ inSlice out q → m' q = m q := by
  have hl : data.len = varintSize ds := by rw [varintSize, ← hx]; simp [bytesOf]
  obtain ⟨m', h1, h2, h3⟩ := C79_getDeltaVarint (out := out) prev hlen hx (by omega) (unread_end hl (by omega) hs)
  rw [← hroom] at h2 h3
  exact ⟨m', h1, h2, h3⟩

-- The varints 1, 300, 7 in the last four of twelve bytes.
example : ∃ m', run (getVarint ⟨.heap 1, 8, 4, 4⟩ ⟨.heap 1, 0, 3, 3⟩)
      (memWith [] [0, 0, 0, 0, 0, 0, 0, 0, 1, 0xAC, 2, 7]) = (.ok 4, m') ∧ wordsOf m' ⟨.heap 1, 0, 3, 3⟩ = [1, 300, 7] := by
  obtain ⟨m', h1, h2, -⟩ := C79_getVarint_inplace (data := ⟨.heap 1, 8, 4, 4⟩) (out := ⟨.heap 1, 0, 3, 3⟩)
    (m := memWith [] [0, 0, 0, 0, 0, 0, 0, 0, 1, 0xAC, 2, 7]) (xs := [1, 300, 7]) (by decide) (by decide +kernel) rfl rfl
    (small3 (by decide) (by decide) (by decide))
  exact ⟨m', h1, h2⟩

/-- C79: varints at the beginning of the slice they are decoded into are overwritten before they are read. -/
theorem C79_getVarint_inplace_wrong : ∃ m : Mem,
    bytesOf m ⟨.heap 1, 0, 3, 3⟩ = varintsOf [1, 2, 3] ∧
    (run (getVarint ⟨.heap 1, 0, 3, 3⟩ ⟨.heap 1, 0, 3, 3⟩) m).1 = .ok 3 ∧
    wordsOf (run (getVarint ⟨.heap 1, 0, 3, 3⟩ ⟨.heap 1, 0, 3, 3⟩) m).2 ⟨.heap 1, 0, 3, 3⟩ = [1, 0, 0] :=
  ⟨memWith [] [1, 2, 3], by decide +kernel, by decide +kernel, by decide +kernel⟩

/-! ## `Delta` -/

private theorem delta_outcome {p : Prog Unit} {inn out : U32s} {m : Mem} {ys : List U32}
    (h : wp ⟨inSlice inn, inSlice out, fun k _ => k = .index ∧ out.len < inn.len⟩ p m
      (fun _ m' => inn.len ≤ out.len ∧ wordsN m' out inn.len = ys ∧ ∀ q, ¬ inFirst out inn.len q → m' q = m q)) :
    (inn.len ≤ out.len → ∃ m', run p m = (.ok (), m') ∧ wordsN m' out inn.len = ys ∧
      ∀ q, ¬ inFirst out inn.len q → m' q = m q) ∧
    (out.len < inn.len → ∃ m', run p m = (.panic .index, m')) := by
  obtain ⟨h1, -, -⟩ := run_of_wp' h
  rcases h1 with ⟨⟨⟩, m', hr, h2, h3, h4⟩ | ⟨k, m', hr, rfl, hk⟩
  · exact ⟨fun _ => ⟨m', hr, h3, h4⟩, fun h => by omega⟩
  · exact ⟨fun h => by omega, fun _ => ⟨m', hr⟩⟩

/-- C79: `Delta` writes the differences if `out` begins at least one number before `in`. -/
theorem C79_delta_before {inn out : U32s} {m : Mem} (h : out.off + 4 ≤ inn.off) :
    (inn.len ≤ out.len → ∃ m', run (utilDelta inn out) m = (.ok (), m') ∧
      wordsN m' out inn.len = delta 0 (wordsOf m inn) ∧ ∀ q, ¬ inFirst out inn.len q → m' q = m q) ∧
    (out.len < inn.len → ∃ m', run (utilDelta inn out) m = (.panic .index, m')) := by
  have hl := wordsOf_length m inn
  refine delta_outcome (utilDelta_over _ (by rw [delta_length, hl]) (fun h0 => ?_) fun n hn hn' m' hf _ => ?_)
  · rw [delta_fn _ _ _ (by omega), pv, if_pos rfl]; exact BitVec.sub_zero _
  · have hin : ∀ t, n - 1 ≤ t → t < inn.len → wordAt m' inn.blk (inn.off + 4 * t) = fn (wordsOf m inn) t := by
      intro t ht1 ht2
      rw [← words_of m inn t ht2]
      refine wordAt_congr fun k hk => hf _ ?_
      rintro ⟨-, h2, h3⟩
      simp only at h2 h3
      omega
    rw [hin n (by omega) hn', hin (n - 1) (by omega) (by omega), delta_fn _ _ _ (by omega), pv, if_neg (by omega)]

private theorem selfDelta_length (p : U32) (xs : List U32) : (selfDelta p xs).length = xs.length := by
  rw [selfDelta_scan, scan_length]

private theorem selfDelta_fn (p : U32) (xs : List U32) (n : Nat) (hn : n < xs.length) :
    fn (selfDelta p xs) n = fn xs n - (if n = 0 then p else fn (selfDelta p xs) (n - 1)) := by
  induction xs generalizing p n with
  | nil => simp at hn
  | cons x xs ih =>
    cases n with
    | zero => simp [selfDelta, fn]
    | succ n =>
      have := ih (x - p) n (by simpa using hn)
      simp only [selfDelta, fn, List.getD_cons_succ] at this ⊢
      rw [this]
      cases n with
      | zero => simp
      | succ n => simp

/-- C79: what `Delta` does to a slice in place (`out` is `in`): from the second number on it subtracts the number it has just
written. -/
theorem C79_delta_inplace (inn : U32s) (m : Mem) :
    ∃ m', run (utilDelta inn inn) m = (.ok (), m') ∧ wordsOf m' inn = selfDelta 0 (wordsOf m inn) ∧
      ∀ q, ¬ inSlice inn q → m' q = m q := by
  have hl := wordsOf_length m inn
  refine (delta_outcome (inn := inn) (out := inn) (utilDelta_over _ (by rw [selfDelta_length, hl]) (fun h0 => ?_)
    fun n hn hn' m' hf hw => ?_)).1 (by omega)
  · rw [selfDelta_fn _ _ _ (by omega), if_pos rfl]; exact BitVec.sub_zero _
  · rw [selfDelta_fn _ _ _ (by omega), if_neg (by omega)]
    congr 1
    · rw [← words_of m inn n hn']
      refine (wordAt_congr fun k hk => hf _ ?_).symm
      rintro ⟨-, h2, h3⟩
      simp only at h2 h3
      omega
    · have hsplit := wordsN_succ m' inn (n - 1)
      rw [show n - 1 + 1 = n by omega, hw] at hsplit
      have h1 := congrArg (fun l => l.getD (n - 1) 0) hsplit
      simp only [List.getD_eq_getElem?_getD] at h1
      rw [List.getElem?_take_of_lt (by omega), List.getElem?_append_right (by simp [wordsN])] at h1
      simp only [wordsN, List.length_map, List.length_range, Nat.sub_self, List.getElem?_cons_zero,
        Option.getD_some] at h1
      rw [← h1]; simp [fn]

private theorem selfDelta_eq (p : U32) (xs : List U32) :
    selfDelta p xs = delta p xs ↔ ∀ i, i + 1 < xs.length → (p :: xs).getD i 0 = 0 := by
  induction xs generalizing p with
  | nil => simp [selfDelta, delta]
  | cons x xs ih =>
    simp only [selfDelta, delta, List.cons.injEq, true_and, List.length_cons]
    cases xs with
    | nil => simp [selfDelta, delta]
    | cons y ys =>
      constructor
      · intro h i hi
        have hp : p = 0 := by
          have := congrArg (fun l => l.getD 0 0) h
          simp only [selfDelta, delta, List.getD_cons_zero] at this
          have h2 : x - p = x - 0 := by
            have := congrArg (y - ·) this
            simpa using this
          bv_omega
        subst hp
        rw [show x - (0 : U32) = x from BitVec.sub_zero x, ih] at h
        cases i with
        | zero => rfl
        | succ i => exact h i (by simp at hi ⊢; omega)
      · intro h
        have hp : p = 0 := h 0 (by simp)
        subst hp
        rw [show x - (0 : U32) = x from BitVec.sub_zero x, ih]
        intro i hi
        exact h (i + 1) (by simp at hi ⊢; omega)

/-- C79: so in place the result is the differences exactly if all numbers but the last two are zero. -/
theorem C79_delta_inplace_right (inn : U32s) (m : Mem) :
    wordsOf (run (utilDelta inn inn) m).2 inn = delta 0 (wordsOf m inn) ↔
      ∀ i, i + 2 < inn.len → (wordsOf m inn).getD i 0 = 0 := by
  obtain ⟨m', h1, h2, -⟩ := C79_delta_inplace inn m
  rw [h1, h2, selfDelta_eq, wordsOf_length]
  constructor
  · intro h i hi
    exact h (i + 1) (by omega)
  · intro h i hi
    cases i with
    | zero => rfl
    | succ i => exact h i (by omega)

/-- C79: `out` one number after `in` gives a wrong result. -/
theorem C79_delta_after_wrong : ∃ m : Mem, wordsOf m ⟨.heap 0, 0, 3, 4⟩ = [1, 3, 6] ∧
    (run (utilDelta ⟨.heap 0, 0, 3, 4⟩ ⟨.heap 0, 4, 3, 3⟩) m).1 = .ok () ∧
    wordsOf (run (utilDelta ⟨.heap 0, 0, 3, 4⟩ ⟨.heap 0, 4, 3, 3⟩) m).2 ⟨.heap 0, 4, 3, 3⟩ = [1, 0, 0xFFFFFFFF] ∧
    delta 0 [1, 3, 6] = [1, 2, 3] :=
  ⟨memWith [1, 3, 6] [], by decide +kernel, by decide +kernel, by decide +kernel, by decide +kernel⟩

-- The differences of 1, 3, 6 are 1, 2, 3; in place the result is 1, 2, 4.
example : delta 0 [1, 3, 6] = [1, 2, 3] ∧ selfDelta 0 [1, 3, 6] = [1, 2, 4] := by decide

-- `out` one number before `in`: 1, 3, 6 at offset 4.
example : ∃ m', run (utilDelta ⟨.heap 0, 4, 3, 3⟩ ⟨.heap 0, 0, 3, 4⟩) (memWith [9, 1, 3, 6] []) = (.ok (), m') ∧
    wordsN m' ⟨.heap 0, 0, 3, 4⟩ 3 = [1, 2, 3] := by
  obtain ⟨m', h1, h2, -⟩ := (C79_delta_before (inn := ⟨.heap 0, 4, 3, 3⟩) (out := ⟨.heap 0, 0, 3, 4⟩)
    (m := memWith [9, 1, 3, 6] []) (by decide)).1 (by decide)
  exact ⟨m', h1, h2.trans (by decide +kernel)⟩

end SVB.Props
