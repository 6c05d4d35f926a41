import Verif.Model.Asm

/-!
# Reading the texts of `Sources.lean`

Just enough of Go's lexical and literal syntax for `/repo/pkg/shared/tables.go` (`AsmText.lean` adds the assembler's).  A
line these functions do not understand makes the whole result `none`.  Characters are bytes (natural numbers).
-/

set_option autoImplicit false

namespace SVB.Sources

abbrev Text := List Nat

/-- The line a number of `Sources.lean` stands for: its bytes but the last two, most significant first. -/
def line (n : Nat) : Text :=
  if n < 65536 then [] else
  let len := n.log2 / 8 - 1
  (List.range len).map fun i => n / 256 ^ (len + 1 - i) % 256

/-- An ASCII constant of this model. -/
def asc (cs : List Char) : Text := cs.map Char.toNat

/-! ## Tokens -/

inductive Tok where
  /-- letters, digits, underscore -/
  | word (w : Text)
  /-- any other character -/
  | sym (c : Nat)
deriving DecidableEq, Repr

def isWordChar (c : Nat) : Bool :=
  (Nat.ble 48 c && Nat.ble c 57) || (Nat.ble 65 c && Nat.ble c 90) || (Nat.ble 97 c && Nat.ble c 122) || Nat.beq c 95

/-- Tokens of a line; blanks and a comment from `//` on are dropped.  `cur` is the current word, last character first. -/
def lexLine : Text → Text → List Tok
  | [], [] => []
  | [], cur => [.word cur.reverse]
  | c :: cs, cur =>
    if isWordChar c then lexLine cs (c :: cur)
    else
      let rest :=
        if Nat.beq c 32 || Nat.beq c 9 then lexLine cs []
        else if Nat.beq c 47 && Nat.beq (cs.headD 0) 47 then []
        else .sym c :: lexLine cs []
      match cur with
      | [] => rest
      | _ => .word cur.reverse :: rest

/-- The value of a digit in base `b`. -/
def digit (b c : Nat) : Option Nat :=
  let d := if Nat.ble c 57 then c - 48 else c - 87
  if ((Nat.ble 48 c && Nat.ble c 57) || Nat.ble 97 c) && Nat.blt d b then some d else none

/-- A number in base `b`. -/
def numeral (b : Nat) : Text → Nat → Option Nat
  | [], acc => some acc
  | c :: cs, acc =>
    match digit b c with
    | some d => numeral b cs (b * acc + d)
    | none => none

/-- A Go integer literal: decimal, or hexadecimal after `0x`. -/
def intLit (w : Text) : Option Nat :=
  match w with
  | [] => none
  | 48 :: 120 :: ds => if ds = [] then none else numeral 16 ds 0
  | ds => numeral 10 ds 0

/-! ## `tables.go` -/

/-- One element of a composite literal: a number or a row of numbers. -/
inductive Item where
  | num (n : Nat)
  | row (ns : List Nat)
deriving DecidableEq, Repr

/-- What a line can be. -/
inductive GoLine where
  | blank
  | package (name : Text)
  /-- `var name *dims…uint8 = &dims…uint8{` -/
  | opened (name : Text) (dims : List Nat)
  | items (is : List Item)
  | closed
deriving DecidableEq, Repr

/-- `[n][m]…uint8`, and what follows. -/
def typeOf : List Tok → Option (List Nat × List Tok)
  | .sym 91 :: .word w :: .sym 93 :: ts =>
    match intLit w, typeOf ts with
    | some n, some (ds, r) => some (n :: ds, r)
    | _, _ => none
  | .word w :: ts => if w = asc ['u', 'i', 'n', 't', '8'] then some ([], ts) else none
  | _ => none

/-- `n, n, …, n}` and what follows the brace. -/
def rowOf : List Tok → Option (List Nat × List Tok)
  | .word w :: .sym 125 :: ts => (intLit w).map fun n => ([n], ts)
  | .word w :: .sym 44 :: ts =>
    match intLit w, rowOf ts with
    | some n, some (ns, r) => some (n :: ns, r)
    | _, _ => none
  | _ => none

/-- Elements, each followed by a comma, up to the end of the line. -/
def itemsOf : Nat → List Tok → Option (List Item)
  | _, [] => some []
  | 0, _ => none
  | f + 1, .word w :: .sym 44 :: ts =>
    match intLit w, itemsOf f ts with
    | some n, some is => some (.num n :: is)
    | _, _ => none
  | f + 1, .sym 123 :: ts =>
    match rowOf ts with
    | some (ns, .sym 44 :: r) => (itemsOf f r).map (.row ns :: ·)
    | _ => none
  | _, _ => none

def goLine (l : Text) : Option GoLine :=
  let ts := lexLine l []
  match ts with
  | [] => some .blank
  | [.sym 125] => some .closed
  | [.word p, .word n] => if p = asc ['p', 'a', 'c', 'k', 'a', 'g', 'e'] then some (.package n) else none
  | .word v :: .word n :: .sym 42 :: r =>
    if v = asc ['v', 'a', 'r'] then
      match typeOf r with
      | some (ds, .sym 61 :: .sym 38 :: r) =>
        match typeOf r with
        | some (ds', [.sym 123]) => if ds = ds' then some (.opened n ds) else none
        | _ => none
      | _ => none
    else none
  | _ => (itemsOf ts.length ts).map .items

/-- A variable of the file: its name, the dimensions of its array and the elements. -/
structure Table where
  name : Text
  dims : List Nat
  items : List Item
deriving DecidableEq, Repr

/-- Collecting the variables of a file from its last line to its first: the elements of the literal whose opening line
has not been met yet, and the variables below. -/
def addLine (l : Option GoLine) (st : Option (Option (List Item) × List Table)) : Option (Option (List Item) × List Table) :=
  match l, st with
  | some .blank, st => st
  | some .closed, some (none, ts) => some (some [], ts)
  | some (.items is), some (some js, ts) => some (some (is ++ js), ts)
  | some (.opened n ds), some (some js, ts) => some (none, ⟨n, ds, js⟩ :: ts)
  | some (.package _), some (none, ts) => some (none, ts)
  | _, _ => none

/-- The variables a text of lines declares. -/
def parseTables (ls : List Text) : Option (List Table) :=
  match ls.foldr (fun l st => addLine (goLine l) st) (some (none, [])) with
  | some (none, ts) => some ts
  | _ => none

end SVB.Sources
