import Verif.Model.Bench

/-! # C41: the benchmark section of the README -/

set_option autoImplicit false

namespace SVB.Props
open Bench

/-! ## Vocabulary -/

/-- `p` occurs in `s` after `a`. -/
def OccursAt (p s a : List Byte) : Prop := ∃ b, s = a ++ (p ++ b)

/-- `p` occurs in `s`. -/
def Occurs (p s : List Byte) : Prop := ∃ a, OccursAt p s a

/-- `p` occurs in `s` after `a` and not before. -/
def FirstAt (p s a : List Byte) : Prop := OccursAt p s a ∧ ∀ a', OccursAt p s a' → a.length ≤ a'.length

/-- The lines of `bench` (split at newlines, one trailing carriage return dropped). -/
def benchLines (bench : List Byte) : List (List Byte) := (rawLines bench []).map dropCR

/-- The new benchmark section: the collected lines, each with its newline (one empty line if there are
none). -/
def newSection (bench : List Byte) : List Byte := join (collect bench) ++ [10]

/-- A README in the shape the program expects: a start sentinel, the benchmark section up to the next end
sentinel, and neither sentinel before. -/
structure Shape (pre mid post : List Byte) : Prop where
  start : FirstAt startSentinel (pre ++ (startSentinel ++ (mid ++ (endSentinel ++ post)))) pre
  stop : FirstAt endSentinel (mid ++ (endSentinel ++ post)) mid
  clean : ¬ Occurs endSentinel pre

/-! ## Facts about lists -/

private theorem index_some {p s : List Byte} {n : Nat} (h : index p s = some n) :
    FirstAt p s (s.take n) ∧ n ≤ s.length := by
  induction s generalizing n with
  | nil =>
    unfold index at h
    split at h
    · cases h
      rename_i hp
      rw [List.isPrefixOf_iff_prefix] at hp
      obtain ⟨t, ht⟩ := hp
      exact ⟨⟨⟨t, by simpa using ht.symm⟩, fun a' _ => by simp⟩, by simp⟩
    · cases h
  | cons b s ih =>
    unfold index at h
    split at h
    · cases h
      rename_i hp
      rw [List.isPrefixOf_iff_prefix] at hp
      obtain ⟨t, ht⟩ := hp
      exact ⟨⟨⟨t, by simpa using ht.symm⟩, fun a' _ => by simp⟩, by simp⟩
    · rename_i hp
      rw [Option.map_eq_some_iff] at h
      obtain ⟨k, hk, rfl⟩ := h
      obtain ⟨⟨⟨t, ht⟩, h2⟩, h3⟩ := ih hk
      refine ⟨⟨⟨t, ?_⟩, ?_⟩, by simp; omega⟩
      · rw [List.take_succ_cons, List.cons_append, ← ht]
      · rintro a' ⟨t', ht'⟩
        match a', ht' with
        | [], ht' =>
          refine absurd ?_ hp
          rw [List.isPrefixOf_iff_prefix]
          exact ⟨t', ht'.symm⟩
        | c :: a', ht' =>
          rw [List.cons_append] at ht'
          injection ht' with e1 e2
          have := h2 a' ⟨t', e2⟩
          simp only [List.take_succ_cons, List.length_cons]
          omega

private theorem index_none {p s : List Byte} (h : index p s = none) : ¬ Occurs p s := by
  induction s with
  | nil =>
    rintro ⟨a, t, ht⟩
    unfold index at h
    split at h
    · cases h
    · rename_i hp
      refine absurd ?_ hp
      have hl := congrArg List.length ht
      simp only [List.length_nil, List.length_append] at hl
      rw [List.length_eq_zero_iff.1 (show p.length = 0 by omega)]
      rfl
  | cons b s ih =>
    unfold index at h
    split at h
    · cases h
    · rename_i hp
      rw [Option.map_eq_none_iff] at h
      rintro ⟨a, t, ht⟩
      match a, ht with
      | [], ht =>
        refine absurd ?_ hp
        rw [List.isPrefixOf_iff_prefix]
        exact ⟨t, ht.symm⟩
      | c :: a, ht =>
        rw [List.cons_append] at ht
        injection ht with e1 e2
        exact ih h ⟨a, t, e2⟩

private theorem index_first {p s a : List Byte} (h : FirstAt p s a) : index p s = some a.length := by
  match hi : index p s with
  | none => exact absurd ⟨a, h.1⟩ (index_none hi)
  | some n =>
    obtain ⟨h1, h2⟩ := index_some hi
    have h3 := h1.2 _ h.1
    have h4 := h.2 _ h1.1
    rw [List.length_take] at h3 h4
    exact congrArg some (by omega)

/-- Occurrences by position. -/
private theorem occursAt_get {p s a : List Byte} (h : OccursAt p s a) {k : Nat} (hk : k < p.length) :
    s[a.length + k]? = p[k]? := by
  obtain ⟨b, rfl⟩ := h
  rw [List.getElem?_append_right (by omega), Nat.add_sub_cancel_left, List.getElem?_append_left hk]

private theorem occurs_of_get {p s : List Byte} {n : Nat} (_ : n + p.length ≤ s.length)
    (h : ∀ k < p.length, s[n + k]? = p[k]?) : OccursAt p s (s.take n) := by
  refine ⟨s.drop (n + p.length), ?_⟩
  have e : p = (s.drop n).take p.length := by
    refine List.ext_getElem? fun k => ?_
    rw [List.getElem?_take, List.getElem?_drop]
    split
    · rename_i hk; exact (h k hk).symm
    · rename_i hk; exact List.getElem?_eq_none (by omega)
  conv => rhs; rhs; lhs; rw [e]
  rw [← List.drop_drop, List.take_append_drop, List.take_append_drop]

private theorem occursAt_len {p s a : List Byte} (h : OccursAt p s a) : a.length + p.length ≤ s.length := by
  obtain ⟨b, rfl⟩ := h
  simp only [List.length_append]; omega

/-- An end sentinel is not inside the start sentinel, nor does it straddle one of its ends. -/
private theorem end_not_in_start : ∀ j < startSentinel.length, ∃ k < 4, j + k < startSentinel.length ∧
    startSentinel[j + k]? ≠ endSentinel[k]? := by decide +kernel

/-- An end sentinel in a file with a start sentinel is before it or behind it. -/
private theorem end_pos {pre rest a : List Byte}
    (h : OccursAt endSentinel (pre ++ (startSentinel ++ rest)) a) :
    OccursAt endSentinel pre a ∨
      (pre.length + startSentinel.length ≤ a.length ∧
        OccursAt endSentinel rest (rest.take (a.length - pre.length - startSentinel.length))) := by
  have hE : endSentinel.length = 4 := by decide
  have hS : startSentinel.length = 23 := by decide
  have hlen := occursAt_len h
  simp only [List.length_append] at hlen
  by_cases h1 : a.length + 4 ≤ pre.length
  · left
    have := occurs_of_get (p := endSentinel) (s := pre) (n := a.length) (by omega) fun k hk => by
      rw [← occursAt_get h hk, List.getElem?_append_left (by omega)]
    have e : pre.take a.length = a := by
      obtain ⟨b, hb⟩ := h
      have := congrArg (List.take a.length) hb
      rwa [List.take_append_of_le_length (by omega), List.take_left] at this
    rwa [e] at this
  · right
    have hp : pre.length + startSentinel.length ≤ a.length := by
      refine Classical.byContradiction fun hc => ?_
      by_cases h2 : a.length < pre.length
      · -- the occurrence covers the first character of the start sentinel, `#`
        have := occursAt_get h (k := pre.length - a.length) (by omega)
        rw [show a.length + (pre.length - a.length) = pre.length from by omega,
          List.getElem?_append_right (by omega), Nat.sub_self] at this
        have e1 : (startSentinel ++ rest)[0]? = some 35 := rfl
        rw [e1] at this
        have h3 : pre.length - a.length = 1 ∨ pre.length - a.length = 2 ∨ pre.length - a.length = 3 := by omega
        rcases h3 with h3 | h3 | h3 <;> rw [h3] at this <;> revert this <;> decide
      · obtain ⟨k, hk, hj, hne⟩ := end_not_in_start (a.length - pre.length) (by omega)
        have := occursAt_get h (k := k) (by omega)
        rw [List.getElem?_append_right (by omega), List.getElem?_append_left (by omega),
          show a.length + k - pre.length = a.length - pre.length + k from by omega] at this
        exact hne this
    refine ⟨hp, occurs_of_get (by omega) fun k hk => ?_⟩
    rw [← occursAt_get h hk, List.getElem?_append_right (by omega), List.getElem?_append_right (by omega)]
    congr 1
    omega

private theorem shape_stop {pre mid post : List Byte} (h : Shape pre mid post) :
    FirstAt endSentinel (pre ++ (startSentinel ++ (mid ++ (endSentinel ++ post))))
      (pre ++ (startSentinel ++ mid)) := by
  refine ⟨⟨post, by simp only [List.append_assoc]⟩, fun a ha => ?_⟩
  rcases end_pos ha with h1 | ⟨h1, h2⟩
  · exact absurd ⟨a, h1⟩ h.clean
  · have := h.stop.2 _ h2
    rw [List.length_take] at this
    simp only [List.length_append]
    omega

/-! ## C41 -/

/-- C41, replacement: in a README of the expected shape exactly the text between the sentinels is replaced.
(`_partial`: without `Shape.clean` the claim fails, see `C41_false`.) -/
theorem C41_replace_partial {pre mid post bench : List Byte} (h : Shape pre mid post)
    (hb : tooLong bench = false) :
    rewrite (pre ++ (startSentinel ++ (mid ++ (endSentinel ++ post)))) bench =
      .written (pre ++ (startSentinel ++ (newSection bench ++ (endSentinel ++ post)))) := by
  unfold rewrite
  rw [hb, if_neg (by decide), index_first h.start, index_first (shape_stop h)]
  have e : pre ++ (startSentinel ++ (mid ++ (endSentinel ++ post))) =
      (pre ++ (startSentinel ++ mid)) ++ (endSentinel ++ post) := by simp only [List.append_assoc]
  simp only
  rw [List.take_left]
  conv => lhs; rw [e, List.drop_left]
  simp only [newSection, List.append_assoc]

/-- How the program ends on every README and every benchmark output. -/
theorem C41_ends (readme bench : List Byte) :
    (rewrite readme bench = .fatal ↔ tooLong bench = true ∨ ¬ Occurs startSentinel readme) ∧
    (rewrite readme bench = .panic ↔
      tooLong bench = false ∧ Occurs startSentinel readme ∧ ¬ Occurs endSentinel readme) := by
  unfold rewrite
  cases ht : tooLong bench
  · rw [if_neg (by decide)]
    match h1 : index startSentinel readme with
    | none =>
      have := index_none h1
      simp [this]
    | some a =>
      have o1 : Occurs startSentinel readme := ⟨_, (index_some h1).1.1⟩
      match h2 : index endSentinel readme with
      | none =>
        have := index_none h2
        simp [o1, this]
      | some b =>
        have o2 : Occurs endSentinel readme := ⟨_, (index_some h2).1.1⟩
        simp [o1, o2]
  · simp

/-- What is written, for every README: everything before the first start sentinel, the new section, and
everything from the first end sentinel of the *whole file* on. -/
theorem C41_written {readme bench a b a' b' : List Byte} (hb : tooLong bench = false)
    (hs : readme = a ++ (startSentinel ++ b)) (hs' : ∀ x, OccursAt startSentinel readme x → a.length ≤ x.length)
    (he : readme = a' ++ (endSentinel ++ b')) (he' : ∀ x, OccursAt endSentinel readme x → a'.length ≤ x.length) :
    rewrite readme bench = .written (a ++ (startSentinel ++ (newSection bench ++ (endSentinel ++ b')))) := by
  unfold rewrite
  rw [hb, if_neg (by decide), index_first ⟨⟨b, hs⟩, hs'⟩, index_first ⟨⟨b', he⟩, he'⟩]
  simp only
  have e1 : readme.take a.length = a := by rw [hs, List.take_left]
  have e2 : readme.drop a'.length = endSentinel ++ b' := by rw [he, List.drop_left]
  rw [e1, e2]
  simp only [newSection, List.append_assoc]

/-! ### Idempotence -/

/-- No collected line contains a newline. -/
private theorem rawLines_no_nl (input cur : List Byte) (hc : (10 : Byte) ∉ cur) :
    ∀ l ∈ rawLines input cur, (10 : Byte) ∉ l := by
  induction input generalizing cur with
  | nil =>
    intro l hl
    unfold rawLines at hl
    split at hl
    · cases hl
    · rw [List.mem_singleton] at hl; exact hl ▸ hc
  | cons b bs ih =>
    intro l hl
    unfold rawLines at hl
    split at hl
    · rw [List.mem_cons] at hl
      rcases hl with rfl | hl
      · exact hc
      · exact ih [] (by simp) l hl
    · rename_i hb
      refine ih (cur ++ [b]) ?_ l hl
      rw [List.mem_append, List.mem_singleton]
      rintro (h | h)
      · exact hc h
      · exact hb h.symm

private theorem dropCR_sub {l : List Byte} {x : Byte} (h : x ∈ dropCR l) : x ∈ l := by
  unfold dropCR at h
  split at h
  · exact List.dropLast_subset _ h
  · exact h

private theorem trim_suffix (l p : List Byte) : trimPrefix l p <:+ l := by
  unfold trimPrefix
  split
  · exact List.drop_suffix _ _
  · exact List.suffix_refl _

/-- Every collected line is empty, dashes, or the end of a line of the input. -/
private theorem collect_lines (bench : List Byte) :
    ∀ l ∈ collect bench, l = [] ∨ l = dashes ∨ ∃ l' ∈ benchLines bench, l <:+ l' := by
  have key : ∀ (ls : List (List Byte)) (s : Bool × List (List Byte)),
      (∀ l ∈ s.2, l = [] ∨ l = dashes ∨ ∃ l' ∈ benchLines bench, l <:+ l') →
      (∀ l ∈ ls, l ∈ benchLines bench) →
      ∀ l ∈ (ls.foldl scanStep s).2, l = [] ∨ l = dashes ∨ ∃ l' ∈ benchLines bench, l <:+ l' := by
    intro ls
    induction ls with
    | nil => intro s hs _; exact hs
    | cons x ls ih =>
      intro s hs hl
      rw [List.foldl_cons]
      refine ih _ ?_ fun l h => hl l (List.mem_cons_of_mem _ h)
      have hx := hl x (List.mem_cons_self ..)
      unfold scanStep
      split
      · simp only
        intro l
        have h1 : ∀ l, l ∈ (if ((s.1 || hasPrefix x benchmark) && hasPrefix x goos) = true then s.2 ++ [[]]
            else s.2) → l = [] ∨ l = dashes ∨ ∃ l' ∈ benchLines bench, l <:+ l' := by
          intro l hl
          split at hl
          · rw [List.mem_append, List.mem_singleton] at hl
            rcases hl with h | h
            · exact hs l h
            · exact .inl h
          · exact hs l hl
        have h2 : (if (s.1 || hasPrefix x benchmark) = true then trimPrefix x benchmark else x) <:+ x := by
          split
          · exact trim_suffix _ _
          · exact List.suffix_refl _
        split <;> intro hl <;> simp only [List.mem_append, List.mem_singleton] at hl
        · rcases hl with (h | rfl) | rfl
          · exact h1 _ h
          · exact .inr (.inr ⟨x, hx, h2⟩)
          · exact .inr (.inl rfl)
        · rcases hl with h | rfl
          · exact h1 _ h
          · exact .inr (.inr ⟨x, hx, h2⟩)
      · exact hs
  exact key _ _ (by simp) fun l h => h

/-- The three backquotes of the end sentinel. -/
def fence : List Byte := str ['`', '`', '`']

/-- In `ls` joined by newlines an end sentinel would be a line ending in the fence. -/
private theorem join_first {ls : List (List Byte)} (post : List Byte) (h1 : ∀ l ∈ ls, (10 : Byte) ∉ l)
    (h2 : ∀ l ∈ ls, ¬ fence <:+ l) :
    FirstAt endSentinel ((join ls ++ [10]) ++ (endSentinel ++ post)) (join ls ++ [10]) := by
  have line : ∀ (l rest a : List Byte), (10 : Byte) ∉ l → ¬ fence <:+ l →
      OccursAt endSentinel (l ++ 10 :: rest) a → l.length + 1 ≤ a.length := by
    intro l rest a hn hf ha
    refine Classical.byContradiction fun hc => ?_
    have hE : endSentinel.length = 4 := by decide
    have h3 := occursAt_get ha (k := 3) (by omega)
    by_cases hlt : a.length + 3 < l.length
    · rw [List.getElem?_append_left hlt] at h3
      exact hn (List.mem_of_getElem? h3)
    · by_cases heq : a.length + 3 = l.length
      · refine hf ⟨l.take a.length, ?_⟩
        refine List.ext_getElem? fun k => ?_
        have hF : fence.length = 3 := by decide
        by_cases hk : k < a.length
        · rw [List.getElem?_append_left (by rw [List.length_take]; omega), List.getElem?_take, if_pos hk]
        · rw [List.getElem?_append_right (by rw [List.length_take]; omega), List.length_take,
            Nat.min_eq_left (by omega)]
          by_cases hk3 : k < l.length
          · have := occursAt_get ha (k := k - a.length) (by omega)
            rw [show a.length + (k - a.length) = k from by omega, List.getElem?_append_left hk3] at this
            rw [this]
            have : k - a.length = 0 ∨ k - a.length = 1 ∨ k - a.length = 2 := by omega
            rcases this with h | h | h <;> rw [h] <;> rfl
          · rw [List.getElem?_eq_none (by omega), List.getElem?_eq_none (by omega)]
      · -- the newline behind the line is one of the backquotes
        have h4 := occursAt_get ha (k := l.length - a.length) (by omega)
        rw [show a.length + (l.length - a.length) = l.length from by omega,
          List.getElem?_append_right (by omega), Nat.sub_self] at h4
        have : l.length - a.length = 0 ∨ l.length - a.length = 1 ∨ l.length - a.length = 2 := by omega
        rcases this with h | h | h <;> rw [h] at h4 <;> revert h4 <;>
          rw [List.getElem?_cons_zero] <;> decide
  have shift : ∀ (l rest a : List Byte), OccursAt endSentinel (l ++ 10 :: rest) a → l.length + 1 ≤ a.length →
      OccursAt endSentinel rest (rest.take (a.length - (l.length + 1))) := by
    intro l rest a ha hl
    have hlen := occursAt_len ha
    simp only [List.length_append, List.length_cons] at hlen
    refine occurs_of_get (by omega) fun k hk => ?_
    rw [← occursAt_get ha hk, List.getElem?_append_right (by omega),
      show a.length + k - l.length = (a.length - (l.length + 1) + k) + 1 from by omega,
      List.getElem?_cons_succ]
  refine ⟨⟨post, rfl⟩, ?_⟩
  induction ls with
  | nil =>
    intro a ha
    simp only [join, List.nil_append, List.length_cons, List.length_nil]
    have := line [] (endSentinel ++ post) a (by simp) (by decide) (by simpa [join] using ha)
    simpa using this
  | cons l ls ih =>
    intro a ha
    have hn := h1 l (List.mem_cons_self ..)
    have hf := h2 l (List.mem_cons_self ..)
    match ls, ih with
    | [], _ =>
      rw [join] at ha ⊢
      rw [List.append_assoc] at ha
      have := line l (endSentinel ++ post) a hn hf ha
      simpa using this
    | l2 :: ls, ih =>
      have e : join (l :: l2 :: ls) = l ++ 10 :: join (l2 :: ls) := rfl
      rw [e] at ha ⊢
      simp only [List.append_assoc, List.cons_append] at ha
      have h3 := line l _ a hn hf ha
      have h4 := shift l _ a ha h3
      have h5 := ih (fun x hx => h1 x (List.mem_cons_of_mem _ hx)) (fun x hx => h2 x (List.mem_cons_of_mem _ hx))
        _ (by simpa only [List.append_assoc, List.cons_append, List.nil_append] using h4)
      rw [List.length_take] at h5
      simp only [List.length_append, List.length_cons, List.length_nil] at h5 ⊢
      omega

/-- The rewritten README has the expected shape again, if no line of the benchmark output ends in a fence. -/
theorem C41_shape {pre mid post bench : List Byte} (h : Shape pre mid post)
    (hf : ∀ l ∈ benchLines bench, ¬ fence <:+ l) : Shape pre (newSection bench) post where
  start := by
    refine ⟨⟨_, rfl⟩, fun a ha => ?_⟩
    refine Classical.byContradiction fun hc => ?_
    have hlen := occursAt_len ha
    -- an earlier start sentinel would lie in `pre ++ startSentinel`, so also in the old README
    have : OccursAt startSentinel (pre ++ (startSentinel ++ (mid ++ (endSentinel ++ post))))
        ((pre ++ (startSentinel ++ (mid ++ (endSentinel ++ post)))).take a.length) := by
      refine occurs_of_get (by simp only [List.length_append] at hlen ⊢; omega) fun k hk => ?_
      rw [← occursAt_get ha hk]
      have e : ∀ r : List Byte, (pre ++ (startSentinel ++ r))[a.length + k]? =
          (pre ++ startSentinel)[a.length + k]? := by
        intro r
        rw [← List.append_assoc, List.getElem?_append_left (by rw [List.length_append]; omega)]
      rw [e, e]
    have := h.start.2 _ this
    rw [List.length_take] at this
    omega
  stop := by
    have hl := collect_lines bench
    refine join_first post (fun l hl' => ?_) (fun l hl' => ?_)
    · rcases hl l hl' with rfl | rfl | ⟨l', h1, h2⟩
      · simp
      · decide
      · intro h10
        obtain ⟨l0, h0, rfl⟩ := List.mem_map.1 h1
        exact rawLines_no_nl bench [] (by simp) l0 h0 (dropCR_sub (h2.mem h10))
    · rcases hl l hl' with rfl | rfl | ⟨l', h1, h2⟩
      · decide
      · decide
      · exact fun h3 => hf l' h1 (h3.trans h2)
  clean := h.clean

/-- C41, fixpoint: rewriting twice gives what the second rewriting alone gives.  (`_partial`: needs the
expected shape, and fails if a line ends in a fence, see `C41_false_fixpoint`.) -/
theorem C41_twice_partial {pre mid post bench bench' readme : List Byte} (h : Shape pre mid post)
    (hb : tooLong bench = false) (hb' : tooLong bench' = false) (hf : ∀ l ∈ benchLines bench, ¬ fence <:+ l)
    (hr : readme = pre ++ (startSentinel ++ (mid ++ (endSentinel ++ post)))) :
    ∃ r, rewrite readme bench = .written r ∧ rewrite r bench' = rewrite readme bench' := by
  subst hr
  refine ⟨_, C41_replace_partial h hb, ?_⟩
  rw [C41_replace_partial h hb', C41_replace_partial (C41_shape h hf) hb']

/-- C41, fixpoint: the same benchmark output twice. -/
theorem C41_fixpoint_partial {pre mid post bench readme : List Byte} (h : Shape pre mid post)
    (hb : tooLong bench = false) (hf : ∀ l ∈ benchLines bench, ¬ fence <:+ l)
    (hr : readme = pre ++ (startSentinel ++ (mid ++ (endSentinel ++ post)))) :
    ∃ r, rewrite readme bench = .written r ∧ rewrite r bench = .written r := by
  obtain ⟨r, h1, h2⟩ := C41_twice_partial h hb hb hf hr
  exact ⟨r, h1, by rw [h2, h1]⟩

/-! ### The lines of the section -/

/-- What line `l` contributes; `seen`: there is a benchmark line up to and including `l`. -/
def contribution (seen : Bool) (l : List Byte) : List (List Byte) :=
  if goos <+: l then (if seen then [[], l] else [l])
  else if goarch <+: l ∨ pkg <+: l then [l]
  else if cpu <+: l then [l, dashes]
  else if benchmark <+: l then [l.drop 9]
  else []

private theorem pre_false {p q l : List Byte} (h : p <+: l) (hq : q.head? ≠ p.head?) (hp : p ≠ []) (hq' : q ≠ []) :
    hasPrefix l q = false := by
  rw [← Bool.not_eq_true, hasPrefix, List.isPrefixOf_iff_prefix]
  intro h2
  refine hq ?_
  match p, q, hp, hq' with
  | a :: p, b :: q, _, _ =>
    obtain ⟨t, ht⟩ := h
    obtain ⟨u, hu⟩ := h2
    rw [← ht] at hu
    simp only [List.cons_append, List.cons.injEq] at hu
    simp [hu.1]

private theorem step_eq (s : Bool × List (List Byte)) (l : List Byte) :
    scanStep s l = ((s.1 || decide (benchmark <+: l)), s.2 ++ contribution (s.1 || decide (benchmark <+: l)) l) := by
  have hP : ∀ q, hasPrefix l q = decide (q <+: l) := by
    intro q
    rw [hasPrefix, Bool.eq_iff_iff, List.isPrefixOf_iff_prefix, decide_eq_true_iff]
  have any : anyPrefix l = (decide (goos <+: l) || (decide (goarch <+: l) || (decide (pkg <+: l) ||
      (decide (cpu <+: l) || decide (benchmark <+: l))))) := by
    simp [anyPrefix, validPrefixes, hP]
  have trim : ¬ benchmark <+: l → trimPrefix l benchmark = l := by
    intro h; unfold trimPrefix; rw [hP, decide_eq_false h]; simp
  have trim' : benchmark <+: l → trimPrefix l benchmark = l.drop 9 := by
    intro h; unfold trimPrefix; rw [hP, decide_eq_true h]; rfl
  unfold scanStep contribution
  rw [any]
  by_cases h1 : goos <+: l
  · have hc : ¬ cpu <+: l := by have := pre_false (q := cpu) h1 (by decide) (by decide) (by decide); simpa [hP] using this
    have hb : ¬ benchmark <+: l := by
      have := pre_false (q := benchmark) h1 (by decide) (by decide) (by decide); simpa [hP] using this
    cases hs : s.1 <;> simp [hP, h1, hc, hb, trim hb]
  · by_cases h2 : goarch <+: l
    · have hc : ¬ cpu <+: l := by have := pre_false (q := cpu) h2 (by decide) (by decide) (by decide); simpa [hP] using this
      have hb : ¬ benchmark <+: l := by
        have := pre_false (q := benchmark) h2 (by decide) (by decide) (by decide); simpa [hP] using this
      cases hs : s.1 <;> simp [hP, h1, h2, hc, hb, trim hb]
    · by_cases h3 : pkg <+: l
      · have hc : ¬ cpu <+: l := by have := pre_false (q := cpu) h3 (by decide) (by decide) (by decide); simpa [hP] using this
        have hb : ¬ benchmark <+: l := by
          have := pre_false (q := benchmark) h3 (by decide) (by decide) (by decide); simpa [hP] using this
        cases hs : s.1 <;> simp [hP, h1, h3, hc, hb, trim hb]
      · by_cases h4 : cpu <+: l
        · have hb : ¬ benchmark <+: l := by
            have := pre_false (q := benchmark) h4 (by decide) (by decide) (by decide); simpa [hP] using this
          cases hs : s.1 <;> simp [hP, h1, h2, h3, h4, hb, trim hb]
        · by_cases h5 : benchmark <+: l
          · simp [hP, h1, h2, h3, h4, h5, trim' h5]
          · simp [h1, h2, h3, h4, h5]

/-- C41: the lines written are the contributions of the lines of the benchmark output, in order. -/
theorem C41_lines (bench : List Byte) :
    collect bench = (List.range (benchLines bench).length).flatMap fun i =>
      contribution (((benchLines bench).take (i + 1)).any fun l => decide (benchmark <+: l))
        ((benchLines bench).getD i []) := by
  have key : ∀ (ls : List (List Byte)) (s : Bool × List (List Byte)),
      (ls.foldl scanStep s).2 = s.2 ++ (List.range ls.length).flatMap fun i =>
        contribution (s.1 || (ls.take (i + 1)).any fun l => decide (benchmark <+: l)) (ls.getD i []) := by
    intro ls
    induction ls with
    | nil => intro s; simp
    | cons x ls ih =>
      intro s
      rw [List.foldl_cons, ih, step_eq, List.length_cons, List.range_succ_eq_map, List.flatMap_cons,
        List.flatMap_map]
      simp only [List.append_assoc]
      congr 1
      congr 1
      · simp
      · congr 1
        funext i
        simp [Bool.or_assoc]
  have := key (benchLines bench) (false, [])
  rw [collect, ← benchLines, this]
  simp

private theorem rawLines_line (l rest cur : List Byte) (h : (10 : Byte) ∉ l) :
    rawLines (l ++ 10 :: rest) cur = (cur ++ l) :: rawLines rest [] := by
  induction l generalizing cur with
  | nil => simp [rawLines]
  | cons b l ih =>
    have hb : b ≠ 10 := fun e => h (by rw [e]; exact List.mem_cons_self ..)
    rw [List.cons_append, rawLines, if_neg hb, ih _ fun hl => h (List.mem_cons_of_mem _ hl)]
    simp

private theorem rawLines_last (l cur : List Byte) (h : (10 : Byte) ∉ l) (hl : cur ++ l ≠ []) :
    rawLines l cur = [cur ++ l] := by
  induction l generalizing cur with
  | nil => rw [List.append_nil] at hl; simp [rawLines, hl]
  | cons b l ih =>
    have hb : b ≠ 10 := fun e => h (by rw [e]; exact List.mem_cons_self ..)
    rw [rawLines, if_neg hb, ih _ (fun hl => h (List.mem_cons_of_mem _ hl)) (by simp)]
    simp

/-- C41: the lines of a text are what one expects: lines that contain no newline and do not end in a carriage
return, each followed by a newline, with or without an unterminated last line. -/
theorem C41_scan (ls : List (List Byte)) (last : List Byte) (h : ∀ l ∈ last :: ls, (10 : Byte) ∉ l)
    (h' : ∀ l ∈ last :: ls, l.getLast? ≠ some 13) :
    benchLines ((ls.flatMap fun l => l ++ [10]) ++ last) = ls ++ if last = [] then [] else [last] := by
  have hd : ∀ l ∈ last :: ls, dropCR l = l := fun l hl => by unfold dropCR; rw [if_neg (h' l hl)]
  have key : rawLines ((ls.flatMap fun l => l ++ [10]) ++ last) [] = ls ++ if last = [] then [] else [last] := by
    clear hd h'
    induction ls with
    | nil =>
      simp only [List.flatMap_nil, List.nil_append]
      split
      · rename_i e; subst e; rfl
      · rename_i e; exact rawLines_last last [] (h _ (List.mem_cons_self ..)) (by simpa using e)
    | cons l ls ih =>
      rw [List.flatMap_cons, List.append_assoc, List.append_assoc, List.singleton_append,
        rawLines_line _ _ _ (h l (by simp)), ih, List.nil_append, List.cons_append]
      intro x hx
      exact h x (by rw [List.mem_cons] at hx ⊢; exact hx.imp_right (List.mem_cons_of_mem _))
  rw [benchLines, key]
  conv => rhs; rw [← List.map_id (ls ++ if last = [] then [] else [last])]
  refine List.map_congr_left fun l hl => hd l ?_
  rw [List.mem_append] at hl
  rcases hl with hl | hl
  · exact List.mem_cons_of_mem _ hl
  · split at hl
    · cases hl
    · rw [List.mem_singleton] at hl; rw [hl]; exact List.mem_cons_self ..

/-- Lines ended by carriage return and newline lose both. -/
theorem C41_scan_crlf (ls : List (List Byte)) (h : ∀ l ∈ ls, (10 : Byte) ∉ l) :
    benchLines (ls.flatMap fun l => l ++ [13, 10]) = ls := by
  have key : rawLines (ls.flatMap fun l => l ++ [13, 10]) [] = ls.map fun l => l ++ [13] := by
    induction ls with
    | nil => rfl
    | cons l ls ih =>
      rw [List.flatMap_cons, show l ++ [13, 10] = (l ++ [13]) ++ [10] by simp, List.append_assoc,
        List.singleton_append, rawLines_line, ih fun x hx => h x (List.mem_cons_of_mem _ hx)]
      · rfl
      · rw [List.mem_append, List.mem_singleton]
        rintro (h1 | h1)
        · exact h l (List.mem_cons_self ..) h1
        · exact absurd h1 (by decide)
  rw [benchLines, key, List.map_map]
  conv => rhs; rw [← List.map_id ls]
  refine List.map_congr_left fun l _ => ?_
  simp [dropCR]

/-! ### Counterexamples -/

/-- Output of a benchmark run with one benchmark. -/
def exBench : List Byte :=
  str ['g', 'o', 'o', 's', ':', ' ', 'x', '\n', 'o', 'k', '\n', 'c', 'p', 'u', ':', ' ', 'y', '\n', 'B', 'e',
    'n', 'c', 'h', 'm', 'a', 'r', 'k', 'A', ' ', '1', '\n', 'P', 'A', 'S', 'S', '\n']

/-- C41 is false: if there is a code block before the benchmark section, the text from the end of that block
on appears twice in the result. -/
theorem C41_false :
    rewrite (fence ++ [10] ++ startSentinel ++ endSentinel) exBench =
      .written (fence ++ [10] ++ startSentinel ++ newSection exBench ++ (fence ++ [10] ++ startSentinel ++
        endSentinel)) := by decide +kernel

/-- … and the result grows each time. -/
theorem C41_false_fixpoint_clean :
    ∃ readme r r', rewrite readme exBench = .written r ∧ rewrite r exBench = .written r' ∧ r ≠ r' := by
  refine ⟨fence ++ [10] ++ startSentinel ++ endSentinel, _, _, rfl, rfl, ?_⟩
  decide +kernel

/-- The fixpoint claim is false even for a README of the expected shape, if a line ends in a fence. -/
theorem C41_false_fixpoint :
    ∃ bench r r', rewrite (startSentinel ++ endSentinel) bench = .written r ∧
      rewrite r bench = .written r' ∧ r ≠ r' := by
  refine ⟨goos ++ fence ++ [10], _, _, rfl, rfl, ?_⟩
  decide +kernel

/-! ### Examples -/

-- The lines collected from `exBench`.
example : collect exBench = [str ['g', 'o', 'o', 's', ':', ' ', 'x'], str ['c', 'p', 'u', ':', ' ', 'y'],
    dashes, str ['A', ' ', '1']] := by decide +kernel
example : tooLong exBench = false := by decide +kernel
example : ∀ l ∈ benchLines exBench, ¬ fence <:+ l := by decide +kernel

/-- A README with text around the benchmark section. -/
theorem C41_exShape : Shape [65, 10] [66, 10] [67, 10] where
  start := ⟨⟨_, rfl⟩, fun a ha => by
    refine Classical.byContradiction fun hc => ?_
    have h0 := occursAt_get ha (k := 0) (by decide)
    have : a.length = 0 ∨ a.length = 1 := by simp only [List.length_cons, List.length_nil] at hc; omega
    rcases this with h | h <;> rw [h] at h0 <;> revert h0 <;> decide⟩
  stop := ⟨⟨_, rfl⟩, fun a ha => by
    refine Classical.byContradiction fun hc => ?_
    have h0 := occursAt_get ha (k := 0) (by decide)
    have : a.length = 0 ∨ a.length = 1 := by simp only [List.length_cons, List.length_nil] at hc; omega
    rcases this with h | h <;> rw [h] at h0 <;> revert h0 <;> decide⟩
  clean := by
    rintro ⟨a, ha⟩
    have := occursAt_len ha
    have hE : endSentinel.length = 4 := by decide
    simp only [List.length_cons, List.length_nil] at this
    omega

example := C41_fixpoint_partial C41_exShape (bench := exBench) (by decide +kernel) (by decide +kernel) rfl

end SVB.Props
