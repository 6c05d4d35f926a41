import Verif.Proofs.Sources
import Verif.Proofs.SourceArrays
import Verif.Model.AsmPrint
import Verif.Setting
import Verif.Props.Generator

/-! # C55: the generated files, character by character

`Sources.lean` holds the texts of `/repo/pkg/shared/tables.go`, `/repo/pkg/encode/encode_amd64.s`,
`/repo/pkg/decode/decode_amd64.s` and of the two Go files with the declarations of the assembly functions.  The theorems
below connect these texts to everything the other theorems are about: the tables in memory, the instructions that are
executed and the frames they are called with. -/

set_option autoImplicit false
set_option maxRecDepth 100000

namespace SVB.Props
open Sources Asm Gen

/-! ## The tables -/

/-- C55: `tables.go` is what `gentables.go` writes (`-package shared`, as in `/repo/pkg/shared/gen.go:3`). -/
theorem C55_tables_generated : GenTables.file (asc "shared".toList) = tablesGo.map line := tablesGo_generated

/-- C55: as Go reads it, `tables.go` declares four arrays with these names, types and contents. -/
theorem C55_tables_text : parseTables (tablesGo.map line) =
    some [⟨asc "PerNumLenTable".toList, [256, 4], perNumLenTable.map .row⟩,
      ⟨asc "PerControlLenTable".toList, [256], perControlLenTable.map .num⟩,
      ⟨asc "EncodeShuffleTable".toList, [256, 16], encodeShuffleTable.map .row⟩,
      ⟨asc "DecodeShuffleTable".toList, [256, 16], decodeShuffleTable.map .row⟩] := tablesGo_parsed

/-! ## The assembly -/

/-- C55: `encode_amd64.s` defines two constants and two functions with these names, frames without local variables, and
exactly these instructions, each followed by one `RET`. -/
theorem C55_encode_text :
    (parseAsm (encodeS.map line)).map (fun f => (f.data, f.fns.map fun f => (f.name, f.locals, f.args, f.body.map Stmt.instr))) =
      some ([(asc "mask0101".toList, 2, 0x0101), (asc "mask7F00".toList, 2, 0x7f00)],
        [(asc "Put8uint32FastAsm".toList, 0, Enc.signature.size, put8uint32FastText),
          (asc "Put8uint32DeltaFastAsm".toList, 0, Enc.signatureDelta.size, put8uint32DeltaFastText)]) := rfl

/-- C55: the same for `decode_amd64.s`. -/
theorem C55_decode_text :
    (parseAsm (decodeS.map line)).map (fun f => (f.data, f.fns.map fun f => (f.name, f.locals, f.args, f.body.map Stmt.instr))) =
      some ([],
        [(asc "Get8uint32FastAsm".toList, 0, Dec.signature.size, get8uint32FastText),
          (asc "Get8uint32DeltaFastAsm".toList, 0, Dec.signatureDelta.size, get8uint32DeltaFastText)]) := rfl

/-- The names and types of a signature of the model. -/
def named (ps : List (String × Ty)) : List (Text × Option Ty) := ps.map fun p => (asc p.1.toList, some p.2)

/-- What an instruction may call the word at an offset of the frame: a parameter or result is at the offset Go's layout
gives it, and the pointer of a slice is called `…_base`. -/
def refs (sig : Sig) : List (Text × Nat) :=
  (sig.args ++ sig.rets.1).map fun p =>
    (asc p.1.toList ++ (if p.2.1 = .slice then asc "_base".toList else []), p.2.2)

/-- What the comments of a function and its declarations `decl` in a Go file have to say: there is one declaration, with
the signature of the comment, which is the one of the model; the instructions use the right names for the offsets; the
extensions named after `Requires` are those of the instructions. -/
def Documented (f : SFn) (sig : Sig) (decl : List (Option TSig)) : Prop :=
  decl = [some f.sig] ∧ tyOf f.sig.1 = named sig.params ∧ tyOf f.sig.2 = named sig.results ∧
  (∀ r ∈ f.body.filterMap Stmt.ref, r ∈ refs sig) ∧
  (asc "AVX".toList ∈ f.requires ↔ Isa.avx ∈ f.body.map fun s => s.instr.isa) ∧
  (asc "AVX2".toList ∈ f.requires ↔ Isa.avx2 ∈ f.body.map fun s => s.instr.isa) ∧
  (∀ r ∈ f.requires, r = asc "AVX".toList ∨ r = asc "AVX2".toList)

instance (f : SFn) (sig : Sig) (decl : List (Option TSig)) : Decidable (Documented f sig decl) := by
  unfold Documented; infer_instance

/-- The two functions of a file and their declarations. -/
def DocumentedFile (f : Option SFile) (n₁ n₂ : Text) (sig₁ sig₂ : Sig) (go : List Text) : Prop :=
  ∃ d f₁ f₂, f = some ⟨d, [f₁, f₂]⟩ ∧ f₁.name = n₁ ∧ f₂.name = n₂ ∧
    Documented f₁ sig₁ (goDecls n₁ go) ∧ Documented f₂ sig₂ (goDecls n₂ go)

instance (f : Option SFile) (n₁ n₂ : Text) (sig₁ sig₂ : Sig) (go : List Text) :
    Decidable (DocumentedFile f n₁ n₂ sig₁ sig₂ go) :=
  match f with
  | some ⟨d, [f₁, f₂]⟩ => decidable_of_iff
      (f₁.name = n₁ ∧ f₂.name = n₂ ∧ Documented f₁ sig₁ (goDecls n₁ go) ∧ Documented f₂ sig₂ (goDecls n₂ go))
      ⟨fun h => ⟨d, f₁, f₂, rfl, h⟩, fun ⟨_, _, _, e, h⟩ => by cases e; exact h⟩
  | none => .isFalse fun ⟨_, _, _, e, _⟩ => nomatch e
  | some ⟨_, []⟩ => .isFalse fun ⟨_, _, _, e, _⟩ => nomatch e
  | some ⟨_, [_]⟩ => .isFalse fun ⟨_, _, _, e, _⟩ => nomatch e
  | some ⟨_, _ :: _ :: _ :: _⟩ => .isFalse fun ⟨_, _, _, e, _⟩ => nomatch e

/-- C55: signatures, names of parameters and extensions in `encode_amd64.s` and `encode_amd64.go`. -/
theorem C55_encode_documented : DocumentedFile (parseAsm (encodeS.map line)) (asc "Put8uint32FastAsm".toList)
    (asc "Put8uint32DeltaFastAsm".toList) Enc.signature Enc.signatureDelta (encodeGo.map line) := by decide +kernel

/-- C55: the same for `decode_amd64.s` and `decode_amd64.go`. -/
theorem C55_decode_documented : DocumentedFile (parseAsm (decodeS.map line)) (asc "Get8uint32FastAsm".toList)
    (asc "Get8uint32DeltaFastAsm".toList) Dec.signature Dec.signatureDelta (decodeGo.map line) := by decide +kernel

/-- C55: with the choice of registers `encG`, … the checked-in assembly is the output of the generators, character by
character. -/
theorem C55_asm_generated :
    (∃ r d, Enc.regular = some r ∧ Enc.differential = some d ∧
      AsmPrint.encodeFile (r.map (GInstr.on encG encX)) (d.map (GInstr.on encG encDX)) = encodeS.map line) ∧
    (∃ r d, Dec.regular = some r ∧ Dec.differential = some d ∧
      AsmPrint.decodeFile (r.map (GInstr.on decG decX)) (d.map (GInstr.on decG decX)) = decodeS.map line) :=
  ⟨⟨_, _, rfl, rfl, by decide +kernel⟩, ⟨_, _, rfl, rfl, by decide +kernel⟩⟩

/-! ## Memory -/

/-- The bytes of an array, row by row. -/
def bytesOf (t : Table) : List Nat := t.items.flatMap fun
  | .num n => [n]
  | .row ns => ns

/-- Where the variables of `tables.go` point to, and where the constants of `encode_amd64.s` are. -/
def placeOf (name : Text) (b : Block) : Prop :=
  (name = asc "PerNumLenTable".toList ∧ b = .numLen) ∨ (name = asc "PerControlLenTable".toList ∧ b = .ctrlLen) ∨
  (name = asc "EncodeShuffleTable".toList ∧ b = .encShuf) ∨ (name = asc "DecodeShuffleTable".toList ∧ b = .decShuf) ∨
  (name = asc "mask0101".toList ∧ b = .mask0101) ∨ (name = asc "mask7F00".toList ∧ b = .mask7F00)

/-- The block begins with these bytes. -/
def Holds (m : Mem) (b : Block) (bytes : List Nat) : Prop := ∀ i x, bytes[i]? = some x → m ⟨b, i⟩ = BitVec.ofNat 8 x

/-- The bytes of a number, least significant first. -/
def littleEndian (size v : Nat) : List Nat := (List.range size).map fun i => v / 256 ^ i % 256

/-- What the linker does with the two files: the variables and constants they declare are in memory. -/
def Linked (m : Mem) : Prop :=
  (∀ ts, parseTables (tablesGo.map line) = some ts → ∀ t ∈ ts, ∀ b, placeOf t.name b → Holds m b (bytesOf t)) ∧
  (∀ f, parseAsm (encodeS.map line) = some f → ∀ d ∈ f.data, ∀ b, placeOf d.1 b → Holds m b (littleEndian d.2.1 d.2.2))

theorem encode_data {f : SFile} (e : parseAsm (encodeS.map line) = some f) :
    f.data = [(asc "mask0101".toList, 2, 0x0101), (asc "mask7F00".toList, 2, 0x7f00)] := by
  have h := C55_encode_text
  rw [e] at h
  exact congrArg Prod.fst (Option.some.inj h)

theorem bytesOf_rows (n : Text) (d : List Nat) (L : List (List Nat)) : bytesOf ⟨n, d, L.map .row⟩ = L.flatten := by
  induction L with
  | nil => rfl
  | cons r L ih => simpa [bytesOf] using ih

theorem bytesOf_nums (n : Text) (d : List Nat) (L : List Nat) : bytesOf ⟨n, d, L.map .num⟩ = L := by
  induction L with
  | nil => rfl
  | cons r L ih => simpa [bytesOf] using ih

theorem holds_two (m : Mem) (b : Block) (x y : Nat) :
    Holds m b [x, y] ↔ m ⟨b, 0⟩ = BitVec.ofNat 8 x ∧ m ⟨b, 1⟩ = BitVec.ofNat 8 y := by
  constructor
  · exact fun h => ⟨h 0 x rfl, h 1 y rfl⟩
  · rintro ⟨h, h'⟩ i z e
    match i, e with
    | 0, e => cases e; exact h
    | 1, e => cases e; exact h'

/-- C55: the memory in which the theorems about calls take place is the one the files describe. -/
theorem C55_memory (m : Mem) : Linked m ↔ TablesLoaded m := by
  obtain ⟨⟨n1, n2⟩, c1, ⟨e1, e2⟩, d1, d2⟩ := table_sizes
  have hn : Holds m .numLen perNumLenTable.flatten ↔ _ := rows_iff perNumLenTable (by decide) n1 n2 fun i => m ⟨.numLen, i⟩
  have hc : Holds m .ctrlLen perControlLenTable ↔ _ := nums_iff perControlLenTable c1 fun i => m ⟨.ctrlLen, i⟩
  have he : Holds m .encShuf encodeShuffleTable.flatten ↔ _ :=
    rows_iff encodeShuffleTable (by decide) e1 e2 fun i => m ⟨.encShuf, i⟩
  have hd : Holds m .decShuf decodeShuffleTable.flatten ↔ _ :=
    rows_iff decodeShuffleTable (by decide) d1 d2 fun i => m ⟨.decShuf, i⟩
  have h1 : Holds m .mask0101 (littleEndian 2 0x0101) ↔ _ := holds_two m .mask0101 0x01 0x01
  have h7 : Holds m .mask7F00 (littleEndian 2 0x7f00) ↔ _ := holds_two m .mask7F00 0x00 0x7f
  obtain ⟨f, ef⟩ : ∃ f, parseAsm (encodeS.map line) = some f := by
    cases e : parseAsm (encodeS.map line) with
    | some f => exact ⟨f, rfl⟩
    | none => have := C55_encode_text; rw [e] at this; cases this
  constructor
  · rintro ⟨ht, hf⟩
    have ht := ht _ C55_tables_text
    have hf := hf f ef
    rw [encode_data ef] at hf
    refine ⟨he.mp ?_, hd.mp ?_, hn.mp ?_, hc.mp ?_, h1.mp ?_, h7.mp ?_⟩
    · rw [← bytesOf_rows]; exact ht _ (.tail _ (.tail _ (.head _))) _ (.inr (.inr (.inl ⟨rfl, rfl⟩)))
    · rw [← bytesOf_rows]; exact ht _ (.tail _ (.tail _ (.tail _ (.head _)))) _ (.inr (.inr (.inr (.inl ⟨rfl, rfl⟩))))
    · rw [← bytesOf_rows]; exact ht _ (.head _) _ (.inl ⟨rfl, rfl⟩)
    · have := ht _ (.tail _ (.head _)) _ (.inr (.inl ⟨rfl, rfl⟩))
      rwa [bytesOf_nums] at this
    · exact hf _ (.head _) _ (.inr (.inr (.inr (.inr (.inl ⟨rfl, rfl⟩)))))
    · exact hf _ (.tail _ (.head _)) _ (.inr (.inr (.inr (.inr (.inr ⟨rfl, rfl⟩)))))
  · intro T
    refine ⟨fun ts e t ht b hb => ?_, fun g e d hg b hb => ?_⟩
    · rw [C55_tables_text] at e
      cases e
      simp only [List.mem_cons, List.not_mem_nil, or_false] at ht
      rcases ht with rfl | rfl | rfl | rfl
      · rw [bytesOf_rows]
        have : b = .numLen := by
          rcases hb with h | h | h | h | h | h
          · exact h.2
          all_goals exact absurd h.1 (by decide)
        exact this ▸ hn.mpr T.numLen
      · rw [bytesOf_nums]
        have : b = .ctrlLen := by
          rcases hb with h | h | h | h | h | h
          · exact absurd h.1 (by decide)
          · exact h.2
          all_goals exact absurd h.1 (by decide)
        exact this ▸ hc.mpr T.ctrlLen
      · rw [bytesOf_rows]
        have : b = .encShuf := by
          rcases hb with h | h | h | h | h | h
          · exact absurd h.1 (by decide)
          · exact absurd h.1 (by decide)
          · exact h.2
          all_goals exact absurd h.1 (by decide)
        exact this ▸ he.mpr T.encShuf
      · rw [bytesOf_rows]
        have : b = .decShuf := by
          rcases hb with h | h | h | h | h | h
          · exact absurd h.1 (by decide)
          · exact absurd h.1 (by decide)
          · exact absurd h.1 (by decide)
          · exact h.2
          all_goals exact absurd h.1 (by decide)
        exact this ▸ hd.mpr T.decShuf
    · rw [encode_data e] at hg
      simp only [List.mem_cons, List.not_mem_nil, or_false] at hg
      rcases hg with rfl | rfl
      · have : b = .mask0101 := by
          rcases hb with h | h | h | h | h | h
          · exact absurd h.1 (by decide)
          · exact absurd h.1 (by decide)
          · exact absurd h.1 (by decide)
          · exact absurd h.1 (by decide)
          · exact h.2
          · exact absurd h.1 (by decide)
        exact this ▸ h1.mpr T.mask0101
      · have : b = .mask7F00 := by
          rcases hb with h | h | h | h | h | h
          · exact absurd h.1 (by decide)
          · exact absurd h.1 (by decide)
          · exact absurd h.1 (by decide)
          · exact absurd h.1 (by decide)
          · exact absurd h.1 (by decide)
          · exact h.2
        exact this ▸ h7.mpr T.mask7F00

example : Linked initMem := (C55_memory _).mpr initMem_tables

/-! ## The checks are not idle

A number of the file changed, a name of a parameter, the mnemonic, an operand, a missing `RET`. -/

example : goLine (asc "\t{1, 1, 1, 2}, {2, 1, 1, 1},".toList) = some (.items [.row [1, 1, 1, 2], .row [2, 1, 1, 1]]) := by
  decide +kernel
example : goLine (asc "\t{1, 1, 1, 2} {2, 1, 1, 1},".toList) = none := by decide +kernel
example : lexLine (asc "\tSHLQ $0x04, DX // 16 bytes".toList) [] =
    [.word (asc "SHLQ".toList), .sym 36, .word (asc "0x04".toList), .sym 44, .word (asc "DX".toList)] := by decide +kernel
/-- The first function alone. -/
def lines1 : List Text := (encodeS.take 45).map line
example : (parseAsm lines1).map (fun f => f.fns.map fun f => f.body.map Stmt.instr) = some [put8uint32FastText] := by
  decide +kernel
example : (parseAsm (lines1.dropLast)).isNone = true := by decide +kernel
example : (parseAsm (lines1.set 27 (asc "\tSHLQ         $0x05, DX".toList))).map
    (fun f => f.fns.map fun f => f.body.map Stmt.instr) = some [put8uint32FastText.set 14 (.SHLQ 5 .DX)] := by decide +kernel
example : (parseAsm (lines1.set 27 (asc "\tSHLL         $0x04, DX".toList))).isNone = true := by decide +kernel
example : (asc "out_base".toList, 24) ∉ refs Enc.signature ∧ (asc "outBytes_base".toList, 24) ∈ refs Enc.signature ∧
    (asc "outBytes_base".toList, 32) ∉ refs Enc.signature := by decide +kernel
example : AsmPrint.encodeFile put8uint32FastText (put8uint32DeltaFastText.set 5 (.VBROADCASTSS_arg 48 .X3)) ≠
    encodeS.map line := by decide +kernel

end SVB.Props
