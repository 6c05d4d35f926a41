import Verif.Model.Sources
import Verif.Model.GenTables

/-! # Computations about the text of `tables.go`, piece by piece -/

set_option autoImplicit false
set_option maxRecDepth 100000

namespace SVB
open Sources GenTables

/-! ## Writing -/

theorem splitLines_append (a u : Text) (cur : Text) (h : a.getLast? = some 10) :
    splitLines (a ++ u) cur = splitLines a cur ++ splitLines u [] := by
  induction a generalizing cur with
  | nil => simp at h
  | cons c a ih =>
    cases a with
    | nil =>
      have : c = 10 := by simpa using h
      subst this
      rfl
    | cons d a =>
      have h' : (d :: a).getLast? = some 10 := by simpa using h
      simp only [List.cons_append] at ih ⊢
      rw [splitLines.eq_3, splitLines.eq_3 cur c (d :: a)]
      split
      · rw [ih [] h', List.cons_append]
      · exact ih _ h'

/-- The lines a piece of the output becomes. -/
def linesOf (t : Text) : List Text := (splitLines t []).map gofmtLine

theorem linesOf_append {a u : Text} (h : a.getLast? = some 10) : linesOf (a ++ u) = linesOf a ++ linesOf u := by
  simp only [linesOf, splitLines_append a u [] h, List.map_append]

/-- Lines `a + 1` to `a + n` of the file. -/
def seg (a n : Nat) : List Text := ((tablesGo.drop a).take n).map line

/-- A piece of a table in the output. -/
def part (perLine : Nat) (row : Nat → Text) (a n : Nat) : Text :=
  (List.range' a n).flatMap fun i => row i ++ newLineAfter perLine (i + 1)

theorem part_add (perLine : Nat) (row : Nat → Text) (a n m : Nat) :
    part perLine row a (n + m) = part perLine row a n ++ part perLine row (a + n) m := by
  simp only [part, ← List.flatMap_append, List.range'_append_1]

theorem rows_part (perLine : Nat) (row : Nat → Text) : rows perLine row = part perLine row 0 256 := by
  simp only [rows, part, List.range_eq_range']

/-! ## Reading -/

/-- The elements on lines that hold nothing else. -/
def collect : List (Option GoLine) → Option (List Item)
  | [] => some []
  | some .blank :: ls => collect ls
  | some (.items is) :: ls => (collect ls).map (is ++ ·)
  | _ => none

theorem collect_fold {ls : List (Option GoLine)} {is : List Item} (h : collect ls = some is) (js : List Item)
    (ts : List Table) : ls.foldr addLine (some (some js, ts)) = some (some (is ++ js), ts) := by
  induction ls generalizing is with
  | nil => cases h; rfl
  | cons l ls ih =>
    rw [List.foldr_cons]
    match l, h with
    | some .blank, h => rw [ih h]; rfl
    | some (.items _), h =>
      rw [collect, Option.map_eq_some_iff] at h
      obtain ⟨a, ha, rfl⟩ := h
      rw [ih ha]
      simp only [addLine, List.append_assoc]

/-- What is checked about a piece: it is a number of full lines, these are the lines of the file, and they hold the given
elements. -/
def pieceOk (perLine : Nat) (row : Nat → Text) (a n : Nat) (first len : Nat) (is : List Item) : Bool :=
  (linesOf (part perLine row a n) == seg first len) && ((part perLine row a n).getLast? == some 10) &&
    (collect ((seg first len).map goLine) == some is)

theorem pieceOk_gen {perLine : Nat} {row : Nat → Text} {a n first len : Nat} {is : List Item}
    (h : pieceOk perLine row a n first len is = true) (m : Nat) (u : Text) :
    linesOf (part perLine row a (n + m) ++ u) = seg first len ++ linesOf (part perLine row (a + n) m ++ u) := by
  simp only [pieceOk, Bool.and_eq_true, beq_iff_eq] at h
  rw [part_add, List.append_assoc, linesOf_append h.1.2, h.1.1]

theorem pieceOk_read {perLine : Nat} {row : Nat → Text} {a n first len : Nat} {is : List Item}
    (h : pieceOk perLine row a n first len is = true) (js : List Item) (ts : List Table) :
    ((seg first len).map goLine).foldr addLine (some (some js, ts)) = some (some (is ++ js), ts) := by
  simp only [pieceOk, Bool.and_eq_true, beq_iff_eq] at h
  exact collect_fold h.2 js ts

theorem part_zero (perLine : Nat) (row : Nat → Text) (a : Nat) : part perLine row a 0 = [] := rfl

/-! ## The pieces -/

def encRow (i : Nat) : Text := comment i ++ shuffleRow (genEncRow i)
def decRow (i : Nat) : Text := comment i ++ shuffleRow (genDecRow i)
def quadRow (i : Nat) : Text := 9 :: (fmtD (genPerQuad i) ++ [44])

theorem num_ok : pieceOk 4 perNumRow 0 256 5 64 (perNumLenTable.map .row) = true := by decide +kernel
theorem quad_ok : pieceOk 8 quadRow 0 256 72 32 (perControlLenTable.map .num) = true := by decide +kernel
theorem enc_ok0 : pieceOk 1 encRow 0 32 107 64 (((encodeShuffleTable.drop 0).take 32).map .row) = true := by
  decide +kernel
theorem enc_ok1 : pieceOk 1 encRow 32 32 171 64 (((encodeShuffleTable.drop 32).take 32).map .row) = true := by
  decide +kernel
theorem enc_ok2 : pieceOk 1 encRow 64 32 235 64 (((encodeShuffleTable.drop 64).take 32).map .row) = true := by
  decide +kernel
theorem enc_ok3 : pieceOk 1 encRow 96 32 299 64 (((encodeShuffleTable.drop 96).take 32).map .row) = true := by
  decide +kernel
theorem enc_ok4 : pieceOk 1 encRow 128 32 363 64 (((encodeShuffleTable.drop 128).take 32).map .row) = true := by
  decide +kernel
theorem enc_ok5 : pieceOk 1 encRow 160 32 427 64 (((encodeShuffleTable.drop 160).take 32).map .row) = true := by
  decide +kernel
theorem enc_ok6 : pieceOk 1 encRow 192 32 491 64 (((encodeShuffleTable.drop 192).take 32).map .row) = true := by
  decide +kernel
theorem enc_ok7 : pieceOk 1 encRow 224 32 555 64 (((encodeShuffleTable.drop 224).take 32).map .row) = true := by
  decide +kernel

theorem enc_items : encodeShuffleTable.map Item.row =
    ((encodeShuffleTable.drop 0).take 32).map .row ++ (
    ((encodeShuffleTable.drop 32).take 32).map .row ++ (
    ((encodeShuffleTable.drop 64).take 32).map .row ++ (
    ((encodeShuffleTable.drop 96).take 32).map .row ++ (
    ((encodeShuffleTable.drop 128).take 32).map .row ++ (
    ((encodeShuffleTable.drop 160).take 32).map .row ++ (
    ((encodeShuffleTable.drop 192).take 32).map .row ++ (
    ((encodeShuffleTable.drop 224).take 32).map .row ++ []))))))) := by decide +kernel

theorem dec_ok0 : pieceOk 1 decRow 0 32 622 64 (((decodeShuffleTable.drop 0).take 32).map .row) = true := by
  decide +kernel
theorem dec_ok1 : pieceOk 1 decRow 32 32 686 64 (((decodeShuffleTable.drop 32).take 32).map .row) = true := by
  decide +kernel
theorem dec_ok2 : pieceOk 1 decRow 64 32 750 64 (((decodeShuffleTable.drop 64).take 32).map .row) = true := by
  decide +kernel
theorem dec_ok3 : pieceOk 1 decRow 96 32 814 64 (((decodeShuffleTable.drop 96).take 32).map .row) = true := by
  decide +kernel
theorem dec_ok4 : pieceOk 1 decRow 128 32 878 64 (((decodeShuffleTable.drop 128).take 32).map .row) = true := by
  decide +kernel
theorem dec_ok5 : pieceOk 1 decRow 160 32 942 64 (((decodeShuffleTable.drop 160).take 32).map .row) = true := by
  decide +kernel
theorem dec_ok6 : pieceOk 1 decRow 192 32 1006 64 (((decodeShuffleTable.drop 192).take 32).map .row) = true := by
  decide +kernel
theorem dec_ok7 : pieceOk 1 decRow 224 32 1070 64 (((decodeShuffleTable.drop 224).take 32).map .row) = true := by
  decide +kernel

theorem dec_items : decodeShuffleTable.map Item.row =
    ((decodeShuffleTable.drop 0).take 32).map .row ++ (
    ((decodeShuffleTable.drop 32).take 32).map .row ++ (
    ((decodeShuffleTable.drop 64).take 32).map .row ++ (
    ((decodeShuffleTable.drop 96).take 32).map .row ++ (
    ((decodeShuffleTable.drop 128).take 32).map .row ++ (
    ((decodeShuffleTable.drop 160).take 32).map .row ++ (
    ((decodeShuffleTable.drop 192).take 32).map .row ++ (
    ((decodeShuffleTable.drop 224).take 32).map .row ++ []))))))) := by decide +kernel

theorem seg_all : tablesGo.map line =
    seg 0 5 ++ (seg 5 64 ++ (seg 69 3 ++ (seg 72 32 ++ (seg 104 3 ++ (seg 107 512 ++ (seg 619 3 ++ (seg 622 512 ++ seg 1134 1))))))) := by
  have : tablesGo = (tablesGo.drop 0).take 5 ++ ((tablesGo.drop 5).take 64 ++ ((tablesGo.drop 69).take 3 ++
      ((tablesGo.drop 72).take 32 ++ ((tablesGo.drop 104).take 3 ++ ((tablesGo.drop 107).take 512 ++
        ((tablesGo.drop 619).take 3 ++ ((tablesGo.drop 622).take 512 ++ (tablesGo.drop 1134).take 1))))))) := by decide +kernel
  simp only [seg, ← List.map_append]
  rw [← this]

theorem seg_split (a n m : Nat) : seg a (n + m) = seg a n ++ seg (a + n) m := by
  simp only [seg, ← List.map_append, List.take_add, List.drop_drop]

theorem seg_512 (a : Nat) : seg a 512 = seg a 64 ++ (seg (a + 64) 64 ++ (seg (a + 128) 64 ++ (seg (a + 192) 64 ++
    (seg (a + 256) 64 ++ (seg (a + 320) 64 ++ (seg (a + 384) 64 ++ seg (a + 448) 64)))))) := by
  rw [show (512 : Nat) = 64 + (64 + (64 + (64 + (64 + (64 + (64 + 64)))))) from rfl]
  iterate 7 rw [seg_split]

/-! ## The lines between the tables -/

/-- The text before the elements of each table, from the end of the table above on. -/
def head0 : Text :=
  asc "// Code generated by gentables. DO NOT EDIT.".toList ++ 10 :: 10 :: (asc "package ".toList ++ asc "shared".toList ++
    10 :: 10 :: asc "var PerNumLenTable *[256][4]uint8 = &[256][4]uint8{".toList ++ [10])
def head1 : Text := 125 :: 10 :: 10 :: asc "var PerControlLenTable *[256]uint8 = &[256]uint8{".toList ++ [10]
def head2 : Text := 125 :: 10 :: 10 :: asc "var EncodeShuffleTable *[256][16]uint8 = &[256][16]uint8{".toList ++ [10]
def head3 : Text := 125 :: 10 :: 10 :: asc "var DecodeShuffleTable *[256][16]uint8 = &[256][16]uint8{".toList ++ [10]

theorem heads_ok :
    (linesOf head0 = seg 0 5 ∧ head0.getLast? = some 10) ∧ (linesOf head1 = seg 69 3 ∧ head1.getLast? = some 10) ∧
    (linesOf head2 = seg 104 3 ∧ head2.getLast? = some 10) ∧ (linesOf head3 = seg 619 3 ∧ head3.getLast? = some 10) ∧
    linesOf [125, 10] = seg 1134 1 := by decide +kernel

theorem heads_read :
    (seg 0 5).map goLine = [some .blank, some .blank, some (.package (asc "shared".toList)), some .blank,
      some (.opened (asc "PerNumLenTable".toList) [256, 4])] ∧
    (seg 69 3).map goLine = [some .closed, some .blank, some (.opened (asc "PerControlLenTable".toList) [256])] ∧
    (seg 104 3).map goLine = [some .closed, some .blank, some (.opened (asc "EncodeShuffleTable".toList) [256, 16])] ∧
    (seg 619 3).map goLine = [some .closed, some .blank, some (.opened (asc "DecodeShuffleTable".toList) [256, 16])] ∧
    (seg 1134 1).map goLine = [some .closed] := by decide +kernel

theorem output_eq : output (asc "shared".toList) =
    head0 ++ (part 4 perNumRow 0 256 ++ (head1 ++ (part 8 quadRow 0 256 ++ (head2 ++ (part 1 encRow 0 256 ++
      (head3 ++ (part 1 decRow 0 256 ++ [125, 10]))))))) := by
  simp only [output, genPerNumLengthTable, genPerQuadLengthTable, genEncodeShuffleTable, genDecodeShuffleTable, rows_part,
    head0, head1, head2, head3, List.append_assoc, List.cons_append, List.nil_append]
  rfl

/-! ## The whole file -/

theorem tablesGo_generated : GenTables.file (asc "shared".toList) = tablesGo.map line := by
  obtain ⟨⟨h0, h0'⟩, ⟨h1, h1'⟩, ⟨h2, h2'⟩, ⟨h3, h3'⟩, h4⟩ := heads_ok
  show linesOf (output (asc "shared".toList)) = _
  rw [output_eq, seg_all, linesOf_append h0', h0, pieceOk_gen num_ok 0, part_zero, List.nil_append, linesOf_append h1', h1,
    pieceOk_gen quad_ok 0, part_zero, List.nil_append, linesOf_append h2', h2,
    pieceOk_gen enc_ok0 224, pieceOk_gen enc_ok1 192, pieceOk_gen enc_ok2 160, pieceOk_gen enc_ok3 128,
    pieceOk_gen enc_ok4 96, pieceOk_gen enc_ok5 64, pieceOk_gen enc_ok6 32, pieceOk_gen enc_ok7 0, part_zero,
    List.nil_append, linesOf_append h3', h3,
    pieceOk_gen dec_ok0 224, pieceOk_gen dec_ok1 192, pieceOk_gen dec_ok2 160, pieceOk_gen dec_ok3 128,
    pieceOk_gen dec_ok4 96, pieceOk_gen dec_ok5 64, pieceOk_gen dec_ok6 32, pieceOk_gen dec_ok7 0, part_zero,
    List.nil_append, h4, seg_512 107, seg_512 622]
  simp only [List.append_assoc]

theorem fold_head {n : Text} {ds : List Nat} (js : List Item) (ts : List Table) :
    [some GoLine.closed, some .blank, some (.opened n ds)].foldr addLine (some (some js, ts)) =
      some (some [], ⟨n, ds, js⟩ :: ts) := rfl

theorem fold_first {p n : Text} {ds : List Nat} (js : List Item) (ts : List Table) :
    [some GoLine.blank, some .blank, some (.package p), some .blank, some (.opened n ds)].foldr addLine (some (some js, ts)) =
      some (none, ⟨n, ds, js⟩ :: ts) := rfl

theorem fold_last : [some GoLine.closed].foldr addLine (some (none, [])) = some (some [], []) := rfl

theorem foldr_goLine (ls : List Text) (st : Option (Option (List Item) × List Table)) :
    ls.foldr (fun l st => addLine (goLine l) st) st = (ls.map goLine).foldr addLine st := by
  rw [List.foldr_map]

theorem parseTables_of {ls : List Text} {ts : List Table}
    (h : (ls.map goLine).foldr addLine (some (none, [])) = some (none, ts)) : parseTables ls = some ts := by
  rw [parseTables, foldr_goLine, h]

theorem tablesGo_parsed : parseTables (tablesGo.map line) =
    some [⟨asc "PerNumLenTable".toList, [256, 4], perNumLenTable.map .row⟩,
      ⟨asc "PerControlLenTable".toList, [256], perControlLenTable.map .num⟩,
      ⟨asc "EncodeShuffleTable".toList, [256, 16], encodeShuffleTable.map .row⟩,
      ⟨asc "DecodeShuffleTable".toList, [256, 16], decodeShuffleTable.map .row⟩] := by
  obtain ⟨h0, h1, h2, h3, h4⟩ := heads_read
  apply parseTables_of
  rw [seg_all, seg_512 107, seg_512 622]
  simp only [List.map_append, List.foldr_append]
  rw [h4, fold_last, pieceOk_read dec_ok7, pieceOk_read dec_ok6, pieceOk_read dec_ok5, pieceOk_read dec_ok4,
    pieceOk_read dec_ok3, pieceOk_read dec_ok2, pieceOk_read dec_ok1, pieceOk_read dec_ok0, ← dec_items, h3, fold_head,
    pieceOk_read enc_ok7, pieceOk_read enc_ok6, pieceOk_read enc_ok5, pieceOk_read enc_ok4, pieceOk_read enc_ok3,
    pieceOk_read enc_ok2, pieceOk_read enc_ok1, pieceOk_read enc_ok0, ← enc_items, h2, fold_head,
    pieceOk_read quad_ok, h1, fold_head, pieceOk_read num_ok, h0, fold_first, List.append_nil, List.append_nil]

end SVB
