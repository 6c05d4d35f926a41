import Verif.Model.ScriptText

/-!
# The programs of `/repo`, parsed

GENERATED by `/verif/scripts/print_scripts.txt`.  `Verif.Proofs.ScriptParse` proves that this is what `Script.parse`
returns for the texts in `ScriptSources.lean` and `GoSources.lean`.
-/

set_option autoImplicit false

namespace SVB.Script.Files

/-! ## `/repo/pkg/shared/main/gentables.go` -/

/-- `main` -/
def gentables_main : Func where
  name := n!"main"
  params := []
  results := []
  body := [
    .expr (.call (.dot (.var n!"flag") n!"Parse") [] false),
    .ite [] (.bin .eq (.deref (.var n!"fOut")) (.str [])) [
      .expr (.call (.dot (.var n!"log") n!"Fatalf") [(.str [111, 117, 116, 102, 105, 108, 101, 32, 99, 97, 110, 110, 111, 116, 32, 98, 101, 32, 101, 109, 112, 116, 121])] false)] [],
    .define [n!"out"] (.addr (.lit (.qual n!"bytes" n!"Buffer") [])),
    .assign [(.var n!"_"), (.var n!"_")] (.call (.dot (.var n!"fmt") n!"Fprintln") [(.var n!"out"), (.str [47, 47, 32, 67, 111, 100, 101, 32, 103, 101, 110, 101, 114, 97, 116, 101, 100, 32, 98, 121, 32, 103, 101, 110, 116, 97, 98, 108, 101, 115, 46, 32, 68, 79, 32, 78, 79, 84, 32, 69, 68, 73, 84, 46])] false),
    .assign [(.var n!"_"), (.var n!"_")] (.call (.dot (.var n!"fmt") n!"Fprintf") [(.var n!"out"), (.str [10, 112, 97, 99, 107, 97, 103, 101, 32, 37, 115, 10]), (.deref (.var n!"fPackage"))] false),
    .ite [
      .define [n!"err"] (.call (.var n!"genPerNumLengthTable") [(.var n!"out")] false)] (.bin .ne (.var n!"err") (.var n!"nil")) [
      .expr (.call (.dot (.var n!"log") n!"Fatalf") [(.str [102, 97, 105, 108, 101, 100, 32, 116, 111, 32, 103, 101, 110, 32, 112, 101, 114, 32, 110, 117, 109, 32, 108, 101, 110, 103, 116, 104, 32, 116, 97, 98, 108, 101])] false)] [],
    .ite [
      .define [n!"err"] (.call (.var n!"genPerQuadLengthTable") [(.var n!"out")] false)] (.bin .ne (.var n!"err") (.var n!"nil")) [
      .expr (.call (.dot (.var n!"log") n!"Fatalf") [(.str [102, 97, 105, 108, 101, 100, 32, 116, 111, 32, 103, 101, 110, 32, 115, 117, 109, 32, 108, 101, 110, 103, 116, 104, 32, 116, 97, 98, 108, 101])] false)] [],
    .ite [
      .define [n!"err"] (.call (.var n!"genEncodeShuffleTable") [(.var n!"out")] false)] (.bin .ne (.var n!"err") (.var n!"nil")) [
      .expr (.call (.dot (.var n!"log") n!"Fatalf") [(.str [102, 97, 105, 108, 101, 100, 32, 116, 111, 32, 103, 101, 110, 32, 101, 110, 99, 111, 100, 101, 32, 115, 104, 117, 102, 102, 108, 101, 32, 116, 97, 98, 108, 101])] false)] [],
    .ite [
      .define [n!"err"] (.call (.var n!"genDecodeShuffleTable") [(.var n!"out")] false)] (.bin .ne (.var n!"err") (.var n!"nil")) [
      .expr (.call (.dot (.var n!"log") n!"Fatalf") [(.str [102, 97, 105, 108, 101, 100, 32, 116, 111, 32, 103, 101, 110, 32, 100, 101, 99, 111, 100, 101, 32, 115, 104, 117, 102, 102, 108, 101, 32, 116, 97, 98, 108, 101])] false)] [],
    .define [n!"final", n!"err"] (.call (.dot (.var n!"format") n!"Source") [(.call (.dot (.var n!"out") n!"Bytes") [] false)] false),
    .ite [] (.bin .ne (.var n!"err") (.var n!"nil")) [
      .expr (.call (.dot (.var n!"log") n!"Fatalf") [(.str [102, 97, 105, 108, 101, 100, 32, 116, 111, 32, 103, 111, 32, 102, 109, 116, 32, 111, 117, 116, 112, 117, 116])] false)] [],
    .define [n!"fileOut", n!"err"] (.call (.dot (.var n!"os") n!"Create") [(.deref (.var n!"fOut"))] false),
    .ite [] (.bin .ne (.var n!"err") (.var n!"nil")) [
      .expr (.call (.dot (.var n!"log") n!"Fatalf") [(.str [102, 97, 105, 108, 101, 100, 32, 116, 111, 32, 111, 112, 101, 110, 58, 32, 37, 115, 32, 37, 115]), (.deref (.var n!"fOut")), (.var n!"err")] false)] [],
    .defer (.call (.dot (.var n!"util") n!"SilentClose") [(.var n!"fileOut")] false),
    .assign [(.var n!"_"), (.var n!"err")] (.call (.dot (.var n!"fileOut") n!"Write") [(.var n!"final")] false),
    .ite [] (.bin .ne (.var n!"err") (.var n!"nil")) [
      .expr (.call (.dot (.var n!"log") n!"Fatalf") [(.str [102, 97, 105, 108, 101, 100, 32, 116, 111, 32, 119, 114, 105, 116, 101, 32, 103, 101, 110, 101, 114, 97, 116, 101, 100, 32, 116, 97, 98, 108, 101, 115, 32, 116, 111, 32, 102, 105, 108, 101])] false)] []]

/-- `newLineAfter` -/
def gentables_newLineAfter : Func where
  name := n!"newLineAfter"
  params := [(n!"countPerLine", (.named n!"int"))]
  results := [(0, .fn)]
  body := [
    .define [n!"count"] (.num 1),
    .ret [(.func [(n!"out", (.qual n!"io" n!"Writer"))] [] [
      .ite [] (.bin .eq (.bin .rem (.var n!"count") (.var n!"countPerLine")) (.num 0)) [
        .assign [(.var n!"_"), (.var n!"_")] (.call (.dot (.var n!"fmt") n!"Fprintln") [(.var n!"out"), (.str [])] false)] [
        .assign [(.var n!"_"), (.var n!"_")] (.call (.dot (.var n!"fmt") n!"Fprintf") [(.var n!"out"), (.str [32])] false)],
      .update .add (.var n!"count") (.num 1)])]]

/-- `genPerNumLengthTable` -/
def gentables_genPerNumLengthTable : Func where
  name := n!"genPerNumLengthTable"
  params := [(n!"out", (.qual n!"io" n!"Writer"))]
  results := [(0, (.named n!"error"))]
  body := [
    .assign [(.var n!"_"), (.var n!"_")] (.call (.dot (.var n!"fmt") n!"Fprintf") [(.var n!"out"), (.str [10, 118, 97, 114, 32, 80, 101, 114, 78, 117, 109, 76, 101, 110, 84, 97, 98, 108, 101, 32, 42, 91, 50, 53, 54, 93, 91, 52, 93, 117, 105, 110, 116, 56, 32, 61, 32, 38, 91, 50, 53, 54, 93, 91, 52, 93, 117, 105, 110, 116, 56, 123, 10])] false),
    .define [n!"tabber"] (.call (.var n!"newLineAfter") [(.num 4)] false),
    .loop [
      .define [n!"i"] (.num 0)] (.bin .lt (.var n!"i") (.var n!"MaxControlByte")) [
      .update .add (.var n!"i") (.num 1)] [
      .define [n!"one", n!"two", n!"three", n!"four"] (.call (.var n!"sizes") [(.call (.var n!"uint8") [(.var n!"i")] false)] false),
      .define [n!"_", n!"err"] (.call (.dot (.var n!"fmt") n!"Fprintf") [(.var n!"out"), (.str [9, 123, 37, 100, 44, 32, 37, 100, 44, 32, 37, 100, 44, 32, 37, 100, 125, 44]), (.var n!"one"), (.var n!"two"), (.var n!"three"), (.var n!"four")] false),
      .ite [] (.bin .ne (.var n!"err") (.var n!"nil")) [
        .ret [(.call (.dot (.var n!"errors") n!"Wrapf") [(.var n!"err"), (.str [102, 97, 105, 108, 101, 100, 32, 116, 111, 32, 119, 114, 105, 116, 101, 32, 112, 101, 114, 32, 110, 117, 109, 32, 108, 101, 110, 58, 32, 37, 100]), (.var n!"i")] false)]] [],
      .expr (.call (.var n!"tabber") [(.var n!"out")] false)],
    .assign [(.var n!"_"), (.var n!"_")] (.call (.dot (.var n!"fmt") n!"Fprintln") [(.var n!"out"), (.str [125])] false),
    .ret [(.var n!"nil")]]

/-- `genPerQuadLengthTable` -/
def gentables_genPerQuadLengthTable : Func where
  name := n!"genPerQuadLengthTable"
  params := [(n!"out", (.qual n!"io" n!"Writer"))]
  results := [(0, (.named n!"error"))]
  body := [
    .assign [(.var n!"_"), (.var n!"_")] (.call (.dot (.var n!"fmt") n!"Fprintf") [(.var n!"out"), (.str [10, 118, 97, 114, 32, 80, 101, 114, 67, 111, 110, 116, 114, 111, 108, 76, 101, 110, 84, 97, 98, 108, 101, 32, 42, 91, 50, 53, 54, 93, 117, 105, 110, 116, 56, 32, 61, 32, 38, 91, 50, 53, 54, 93, 117, 105, 110, 116, 56, 123, 10])] false),
    .define [n!"tabber"] (.call (.var n!"newLineAfter") [(.num 8)] false),
    .loop [
      .define [n!"i"] (.num 0)] (.bin .lt (.var n!"i") (.var n!"MaxControlByte")) [
      .update .add (.var n!"i") (.num 1)] [
      .define [n!"one", n!"two", n!"three", n!"four"] (.call (.var n!"sizes") [(.call (.var n!"uint8") [(.var n!"i")] false)] false),
      .define [n!"_", n!"err"] (.call (.dot (.var n!"fmt") n!"Fprintf") [(.var n!"out"), (.str [9, 37, 100, 44]), (.bin .add (.bin .add (.bin .add (.var n!"one") (.var n!"two")) (.var n!"three")) (.var n!"four"))] false),
      .ite [] (.bin .ne (.var n!"err") (.var n!"nil")) [
        .ret [(.call (.dot (.var n!"errors") n!"Wrapf") [(.var n!"err"), (.str [102, 97, 105, 108, 101, 100, 32, 116, 111, 32, 119, 114, 105, 116, 101, 32, 115, 117, 109, 109, 101, 100, 32, 108, 101, 110, 58, 32, 37, 100]), (.var n!"i")] false)]] [],
      .expr (.call (.var n!"tabber") [(.var n!"out")] false)],
    .assign [(.var n!"_"), (.var n!"_")] (.call (.dot (.var n!"fmt") n!"Fprintln") [(.var n!"out"), (.str [125])] false),
    .ret [(.var n!"nil")]]

/-- `genEncodeShuffleTable` -/
def gentables_genEncodeShuffleTable : Func where
  name := n!"genEncodeShuffleTable"
  params := [(n!"out", (.qual n!"io" n!"Writer"))]
  results := [(0, (.named n!"error"))]
  body := [
    .assign [(.var n!"_"), (.var n!"_")] (.call (.dot (.var n!"fmt") n!"Fprintf") [(.var n!"out"), (.str [10, 118, 97, 114, 32, 69, 110, 99, 111, 100, 101, 83, 104, 117, 102, 102, 108, 101, 84, 97, 98, 108, 101, 32, 42, 91, 50, 53, 54, 93, 91, 49, 54, 93, 117, 105, 110, 116, 56, 32, 61, 32, 38, 91, 50, 53, 54, 93, 91, 49, 54, 93, 117, 105, 110, 116, 56, 123, 10])] false),
    .define [n!"tabber"] (.call (.var n!"newLineAfter") [(.num 1)] false),
    .loop [
      .define [n!"i"] (.num 0)] (.bin .lt (.var n!"i") (.var n!"MaxControlByte")) [
      .update .add (.var n!"i") (.num 1)] [
      .define [n!"one", n!"two", n!"three", n!"four"] (.call (.var n!"sizes") [(.call (.var n!"uint8") [(.var n!"i")] false)] false),
      .assign [(.var n!"_"), (.var n!"_")] (.call (.dot (.var n!"fmt") n!"Fprintf") [(.var n!"out"), (.var n!"commentStr"), (.var n!"i"), (.var n!"i"), (.var n!"i"), (.var n!"one"), (.var n!"two"), (.var n!"three"), (.var n!"four")] false),
      .define [n!"_", n!"err"] (.call (.dot (.var n!"fmt") n!"Fprintf") [(.var n!"out"), (.str [9, 123])] false),
      .ite [] (.bin .ne (.var n!"err") (.var n!"nil")) [
        .ret [(.call (.dot (.var n!"errors") n!"Wrapf") [(.var n!"err"), (.str [102, 97, 105, 108, 101, 100, 32, 116, 111, 32, 119, 114, 105, 116, 101, 32, 101, 110, 99, 111, 100, 101, 32, 115, 104, 117, 102, 102, 108, 101, 32, 116, 97, 98, 108, 101])] false)]] [],
      .var n!"positions" (some (.slice .any)) none,
      .var n!"base" (some (.named n!"uint8")) none,
      .range n!"_" n!"size" (.lit (.slice (.named n!"uint8")) [(0, (.var n!"one")), (0, (.var n!"two")), (0, (.var n!"three")), (0, (.var n!"four"))]) [
        .loop [
          .define [n!"j"] (.call (.var n!"uint8") [(.num 0)] false)] (.bin .lt (.var n!"j") (.var n!"size")) [
          .update .add (.var n!"j") (.num 1)] [
          .assign [(.var n!"positions")] (.call (.var n!"append") [(.var n!"positions"), (.bin .add (.var n!"base") (.var n!"j"))] false)],
        .update .add (.var n!"base") (.num 4)],
      .loop [] (.bin .lt (.call (.var n!"len") [(.var n!"positions")] false) (.num 16)) [] [
        .assign [(.var n!"positions")] (.call (.var n!"append") [(.var n!"positions"), (.num 255)] false)],
      .assign [(.var n!"_"), (.var n!"err")] (.call (.dot (.var n!"fmt") n!"Fprintf") [(.var n!"out"), (.var n!"shuffleFmtStr"), (.var n!"positions")] true),
      .ite [] (.bin .ne (.var n!"err") (.var n!"nil")) [
        .ret [(.call (.dot (.var n!"errors") n!"Wrapf") [(.var n!"err"), (.str [102, 97, 105, 108, 101, 100, 32, 116, 111, 32, 119, 114, 105, 116, 101, 32, 112, 101, 114, 32, 110, 117, 109, 32, 108, 101, 110, 58, 32, 37, 100]), (.var n!"i")] false)]] [],
      .expr (.call (.var n!"tabber") [(.var n!"out")] false)],
    .assign [(.var n!"_"), (.var n!"_")] (.call (.dot (.var n!"fmt") n!"Fprintln") [(.var n!"out"), (.str [125])] false),
    .ret [(.var n!"nil")]]

/-- `genDecodeShuffleTable` -/
def gentables_genDecodeShuffleTable : Func where
  name := n!"genDecodeShuffleTable"
  params := [(n!"out", (.qual n!"io" n!"Writer"))]
  results := [(0, (.named n!"error"))]
  body := [
    .assign [(.var n!"_"), (.var n!"_")] (.call (.dot (.var n!"fmt") n!"Fprintf") [(.var n!"out"), (.str [10, 118, 97, 114, 32, 68, 101, 99, 111, 100, 101, 83, 104, 117, 102, 102, 108, 101, 84, 97, 98, 108, 101, 32, 42, 91, 50, 53, 54, 93, 91, 49, 54, 93, 117, 105, 110, 116, 56, 32, 61, 32, 38, 91, 50, 53, 54, 93, 91, 49, 54, 93, 117, 105, 110, 116, 56, 123, 10])] false),
    .define [n!"tabber"] (.call (.var n!"newLineAfter") [(.num 1)] false),
    .loop [
      .define [n!"i"] (.num 0)] (.bin .lt (.var n!"i") (.var n!"MaxControlByte")) [
      .update .add (.var n!"i") (.num 1)] [
      .define [n!"one", n!"two", n!"three", n!"four"] (.call (.var n!"sizes") [(.call (.var n!"uint8") [(.var n!"i")] false)] false),
      .assign [(.var n!"_"), (.var n!"_")] (.call (.dot (.var n!"fmt") n!"Fprintf") [(.var n!"out"), (.var n!"commentStr"), (.var n!"i"), (.var n!"i"), (.var n!"i"), (.var n!"one"), (.var n!"two"), (.var n!"three"), (.var n!"four")] false),
      .define [n!"_", n!"err"] (.call (.dot (.var n!"fmt") n!"Fprintf") [(.var n!"out"), (.str [9, 123])] false),
      .ite [] (.bin .ne (.var n!"err") (.var n!"nil")) [
        .ret [(.call (.dot (.var n!"errors") n!"Wrapf") [(.var n!"err"), (.str [102, 97, 105, 108, 101, 100, 32, 116, 111, 32, 119, 114, 105, 116, 101, 32, 101, 110, 99, 111, 100, 101, 32, 115, 104, 117, 102, 102, 108, 101, 32, 116, 97, 98, 108, 101])] false)]] [],
      .var n!"positions" (some (.slice .any)) none,
      .var n!"pos" (some (.named n!"uint8")) none,
      .range n!"_" n!"size" (.lit (.slice (.named n!"uint8")) [(0, (.var n!"one")), (0, (.var n!"two")), (0, (.var n!"three")), (0, (.var n!"four"))]) [
        .loop [
          .define [n!"j"] (.num 0)] (.bin .lt (.var n!"j") (.num 4)) [
          .update .add (.var n!"j") (.num 1)] [
          .ite [] (.bin .gt (.var n!"size") (.num 0)) [
            .assign [(.var n!"positions")] (.call (.var n!"append") [(.var n!"positions"), (.var n!"pos")] false),
            .update .add (.var n!"pos") (.num 1),
            .update .sub (.var n!"size") (.num 1)] [
            .assign [(.var n!"positions")] (.call (.var n!"append") [(.var n!"positions"), (.num 255)] false)]]],
      .assign [(.var n!"_"), (.var n!"err")] (.call (.dot (.var n!"fmt") n!"Fprintf") [(.var n!"out"), (.var n!"shuffleFmtStr"), (.var n!"positions")] true),
      .ite [] (.bin .ne (.var n!"err") (.var n!"nil")) [
        .ret [(.call (.dot (.var n!"errors") n!"Wrapf") [(.var n!"err"), (.str [102, 97, 105, 108, 101, 100, 32, 116, 111, 32, 119, 114, 105, 116, 101, 32, 112, 101, 114, 32, 110, 117, 109, 32, 108, 101, 110, 58, 32, 37, 100]), (.var n!"i")] false)]] [],
      .expr (.call (.var n!"tabber") [(.var n!"out")] false)],
    .assign [(.var n!"_"), (.var n!"_")] (.call (.dot (.var n!"fmt") n!"Fprintln") [(.var n!"out"), (.str [125])] false),
    .ret [(.var n!"nil")]]

/-- `sizes` -/
def gentables_sizes : Func where
  name := n!"sizes"
  params := [(n!"control", (.named n!"uint8"))]
  results := [(n!"one", (.named n!"uint8")), (n!"two", (.named n!"uint8")), (n!"three", (.named n!"uint8")), (n!"four", (.named n!"uint8"))]
  body := [
    .assign [(.var n!"one")] (.bin .add (.bin .and (.var n!"control") (.num 3)) (.num 1)),
    .assign [(.var n!"two")] (.bin .add (.bin .and (.bin .shr (.var n!"control") (.num 2)) (.num 3)) (.num 1)),
    .assign [(.var n!"three")] (.bin .add (.bin .and (.bin .shr (.var n!"control") (.num 4)) (.num 3)) (.num 1)),
    .assign [(.var n!"four")] (.bin .add (.bin .and (.bin .shr (.var n!"control") (.num 6)) (.num 3)) (.num 1)),
    .ret []]

/-- `/repo/pkg/shared/main/gentables.go` -/
def gentables : File where
  pkg := n!"main"
  imports := [n!"bytes", n!"flag", n!"fmt", n!"go/format", n!"io", n!"log", n!"os", n!"github.com/pkg/errors", n!"github.com/theMPatel/streamvbyte-simdgo/pkg/util"]
  dots := []
  types := []
  consts := [(n!"MaxControlByte", (.bin .shl (.num 1) (.num 8))), (n!"shuffleFmtStr", (.str [37, 35, 48, 50, 120, 44, 32, 37, 35, 48, 50, 120, 44, 32, 37, 35, 48, 50, 120, 44, 32, 37, 35, 48, 50, 120, 44, 32, 37, 35, 48, 50, 120, 44, 32, 37, 35, 48, 50, 120, 44, 32, 37, 35, 48, 50, 120, 44, 32, 37, 35, 48, 50, 120, 44, 32, 37, 35, 48, 50, 120, 44, 32, 37, 35, 48, 50, 120, 44, 32, 37, 35, 48, 50, 120, 44, 32, 37, 35, 48, 50, 120, 44, 32, 37, 35, 48, 50, 120, 44, 32, 37, 35, 48, 50, 120, 44, 32, 37, 35, 48, 50, 120, 44, 32, 37, 35, 48, 50, 120, 125, 44])), (n!"commentStr", (.str [9, 47, 47, 32, 37, 100, 9, 37, 35, 48, 50, 120, 9, 37, 48, 56, 98, 9, 108, 101, 110, 9, 37, 100, 9, 37, 100, 9, 37, 100, 9, 37, 100, 10]))]
  vars := [(n!"fOut", (.call (.dot (.var n!"flag") n!"String") [(.str [111, 117, 116]), (.str []), (.str [112, 97, 116, 104, 32, 116, 111, 32, 111, 117, 116, 112, 117, 116])] false)), (n!"fPackage", (.call (.dot (.var n!"flag") n!"String") [(.str [112, 97, 99, 107, 97, 103, 101]), (.str [115, 104, 97, 114, 101, 100]), (.str [112, 97, 99, 107, 97, 103, 101, 32, 110, 97, 109, 101])] false))]
  funcs := [gentables_main, gentables_newLineAfter, gentables_genPerNumLengthTable, gentables_genPerQuadLengthTable, gentables_genEncodeShuffleTable, gentables_genDecodeShuffleTable, gentables_sizes]

/-! ## `/repo/pkg/shared/asm.go` -/

/-- `CalculateShuffleAddrFromCtrl` -/
def sharedAsm_CalculateShuffleAddrFromCtrl : Func where
  name := n!"CalculateShuffleAddrFromCtrl"
  params := [(n!"shuffleBase", (.qual n!"reg" n!"Register")), (n!"ctrl", (.qual n!"reg" n!"GPVirtual")), (n!"upper", (.named n!"bool"))]
  results := [(0, (.qual n!"operand" n!"Mem"))]
  body := [
    .define [n!"addr"] (.call (.var n!"GP64") [] false),
    .ite [] (.var n!"upper") [
      .expr (.call (.var n!"MOVWQZX") [(.call (.dot (.var n!"ctrl") n!"As16") [] false), (.var n!"addr")] false),
      .expr (.call (.var n!"SHRQ") [(.call (.dot (.var n!"operand") n!"Imm") [(.num 8)] false), (.var n!"addr")] false)] [
      .expr (.call (.var n!"MOVBQZX") [(.call (.dot (.var n!"ctrl") n!"As8") [] false), (.var n!"addr")] false)],
    .expr (.call (.var n!"SHLQ") [(.call (.dot (.var n!"operand") n!"Imm") [(.num 4)] false), (.var n!"addr")] false),
    .expr (.call (.var n!"ADDQ") [(.var n!"shuffleBase"), (.var n!"addr")] false),
    .ret [(.lit (.qual n!"operand" n!"Mem") [(n!"Base", (.var n!"addr"))])]]

/-- `LenValueAddr` -/
def sharedAsm_LenValueAddr : Func where
  name := n!"LenValueAddr"
  params := [(n!"ctrl", (.qual n!"reg" n!"GPVirtual")), (n!"upper", (.named n!"bool")), (n!"lenTableParam", (.named n!"string"))]
  results := [(0, (.qual n!"operand" n!"Mem")), (0, (.qual n!"reg" n!"GPVirtual"))]
  body := [
    .define [n!"lenTableBase"] (.call (.var n!"Load") [(.call (.var n!"Param") [(.var n!"lenTableParam")] false), (.call (.var n!"GP64") [] false)] false),
    .define [n!"lenValueAddr"] (.call (.var n!"GP64") [] false),
    .ite [] (.var n!"upper") [
      .expr (.call (.var n!"MOVWQZX") [(.call (.dot (.var n!"ctrl") n!"As16") [] false), (.var n!"lenValueAddr")] false),
      .expr (.call (.var n!"SHRQ") [(.call (.dot (.var n!"operand") n!"Imm") [(.num 8)] false), (.var n!"lenValueAddr")] false)] [
      .expr (.call (.var n!"MOVBQZX") [(.call (.dot (.var n!"ctrl") n!"As8L") [] false), (.var n!"lenValueAddr")] false)],
    .expr (.call (.var n!"ADDQ") [(.var n!"lenTableBase"), (.var n!"lenValueAddr")] false),
    .ret [(.lit (.qual n!"operand" n!"Mem") [(n!"Base", (.var n!"lenValueAddr"))]), (.var n!"lenValueAddr")]]

/-- `Load8` -/
def sharedAsm_Load8 : Func where
  name := n!"Load8"
  params := [(n!"paramName", (.named n!"string"))]
  results := [(0, (.qual n!"reg" n!"VecVirtual")), (0, (.qual n!"reg" n!"VecVirtual"))]
  body := [
    .define [n!"arrBase"] (.lit (.qual n!"operand" n!"Mem") [(n!"Base", (.call (.var n!"Load") [(.call (.dot (.call (.var n!"Param") [(.var n!"paramName")] false) n!"Base") [] false), (.call (.var n!"GP64") [] false)] false))]),
    .define [n!"firstFour"] (.call (.var n!"XMM") [] false),
    .define [n!"secondFour"] (.call (.var n!"XMM") [] false),
    .expr (.call (.var n!"VLDDQU") [(.var n!"arrBase"), (.var n!"firstFour")] false),
    .expr (.call (.var n!"VLDDQU") [(.call (.dot (.var n!"arrBase") n!"Offset") [(.num 16)] false), (.var n!"secondFour")] false),
    .ret [(.var n!"firstFour"), (.var n!"secondFour")]]

/-- `/repo/pkg/shared/asm.go` -/
def sharedAsm : File where
  pkg := n!"shared"
  imports := [n!"github.com/mmcloughlin/avo/operand", n!"github.com/mmcloughlin/avo/reg"]
  dots := [n!"github.com/mmcloughlin/avo/build"]
  types := []
  consts := []
  vars := []
  funcs := [sharedAsm_CalculateShuffleAddrFromCtrl, sharedAsm_LenValueAddr, sharedAsm_Load8]

/-! ## `/repo/pkg/encode/main/asm.go` -/

/-- `main` -/
def encAsm_main : Func where
  name := n!"main"
  params := []
  results := []
  body := [
    .expr (.call (.var n!"regular") [] false),
    .expr (.call (.var n!"differential") [] false),
    .expr (.call (.var n!"Generate") [] false)]

/-- `differential` -/
def encAsm_differential : Func where
  name := n!"differential"
  params := []
  results := []
  body := [
    .expr (.call (.var n!"TEXT") [(.var n!"nameDelta"), (.var n!"NOSPLIT"), (.var n!"signatureDelta")] false),
    .define [n!"prevSingular", n!"err"] (.call (.dot (.call (.var n!"Param") [(.var n!"pPrev")] false) n!"Resolve") [] false),
    .ite [] (.bin .ne (.var n!"err") (.var n!"nil")) [
      .expr (.call (.dot (.var n!"log") n!"Fatalf") [(.str [102, 97, 105, 108, 101, 100, 32, 116, 111, 32, 103, 101, 116, 32, 97, 100, 100, 114, 32, 111, 102, 32, 112, 114, 101, 118])] false)] [],
    .define [n!"firstFour", n!"secondFour"] (.call (.dot (.var n!"shared") n!"Load8") [(.var n!"pIn")] false),
    .define [n!"prev"] (.call (.var n!"XMM") [] false),
    .expr (.call (.var n!"VPALIGNR") [(.call (.dot (.var n!"operand") n!"Imm") [(.num 12)] false), (.var n!"firstFour"), (.var n!"secondFour"), (.var n!"prev")] false),
    .expr (.call (.var n!"VPSUBD") [(.var n!"prev"), (.var n!"secondFour"), (.var n!"secondFour")] false),
    .expr (.call (.var n!"VBROADCASTSS") [(.dot (.var n!"prevSingular") n!"Addr"), (.var n!"prev")] false),
    .expr (.call (.var n!"VPALIGNR") [(.call (.dot (.var n!"operand") n!"Imm") [(.num 12)] false), (.var n!"prev"), (.var n!"firstFour"), (.var n!"prev")] false),
    .expr (.call (.var n!"VPSUBD") [(.var n!"prev"), (.var n!"firstFour"), (.var n!"firstFour")] false),
    .expr (.call (.var n!"coreAlgorithm") [(.var n!"firstFour"), (.var n!"secondFour")] false)]

/-- `regular` -/
def encAsm_regular : Func where
  name := n!"regular"
  params := []
  results := []
  body := [
    .expr (.call (.var n!"TEXT") [(.var n!"name"), (.var n!"NOSPLIT"), (.var n!"signature")] false),
    .expr (.call (.var n!"coreAlgorithm") [(.call (.dot (.var n!"shared") n!"Load8") [(.var n!"pIn")] false)] false)]

/-- `coreAlgorithm` -/
def encAsm_coreAlgorithm : Func where
  name := n!"coreAlgorithm"
  params := [(n!"firstFour", (.qual n!"reg" n!"VecVirtual")), (n!"secondFour", (.qual n!"reg" n!"VecVirtual"))]
  results := []
  body := [
    .define [n!"onesMask"] (.call (.var n!"XMM") [] false),
    .define [n!"sevenFzerozero"] (.call (.var n!"XMM") [] false),
    .expr (.call (.var n!"VPBROADCASTW") [(.var n!"mask1111R"), (.var n!"onesMask")] false),
    .expr (.call (.var n!"VPBROADCASTW") [(.var n!"mask7F00R"), (.var n!"sevenFzerozero")] false),
    .define [n!"minFirstFour"] (.call (.var n!"XMM") [] false),
    .define [n!"minSecondFour"] (.call (.var n!"XMM") [] false),
    .expr (.call (.var n!"VPMINUB") [(.var n!"onesMask"), (.var n!"firstFour"), (.var n!"minFirstFour")] false),
    .expr (.call (.var n!"VPMINUB") [(.var n!"onesMask"), (.var n!"secondFour"), (.var n!"minSecondFour")] false),
    .expr (.call (.var n!"VPACKUSWB") [(.var n!"minSecondFour"), (.var n!"minFirstFour"), (.var n!"minFirstFour")] false),
    .expr (.call (.var n!"VPMINSW") [(.var n!"onesMask"), (.var n!"minFirstFour"), (.var n!"minFirstFour")] false),
    .expr (.call (.var n!"VPADDUSW") [(.var n!"sevenFzerozero"), (.var n!"minFirstFour"), (.var n!"minFirstFour")] false),
    .define [n!"ctrl"] (.call (.var n!"GP32") [] false),
    .expr (.call (.var n!"VPMOVMSKB") [(.var n!"minFirstFour"), (.var n!"ctrl")] false),
    .expr (.call (.var n!"Store") [(.call (.dot (.var n!"ctrl") n!"As16") [] false), (.call (.var n!"Return") [(.var n!"pR")] false)] false),
    .define [n!"shuffleBase"] (.call (.var n!"Load") [(.call (.var n!"Param") [(.var n!"pShuffle")] false), (.call (.var n!"GP64") [] false)] false),
    .define [n!"firstShuffle"] (.call (.dot (.var n!"shared") n!"CalculateShuffleAddrFromCtrl") [(.var n!"shuffleBase"), (.var n!"ctrl"), (.var n!"false")] false),
    .define [n!"secondShuffle"] (.call (.dot (.var n!"shared") n!"CalculateShuffleAddrFromCtrl") [(.var n!"shuffleBase"), (.var n!"ctrl"), (.var n!"true")] false),
    .expr (.call (.var n!"VPSHUFB") [(.var n!"firstShuffle"), (.var n!"firstFour"), (.var n!"firstFour")] false),
    .expr (.call (.var n!"VPSHUFB") [(.var n!"secondShuffle"), (.var n!"secondFour"), (.var n!"secondFour")] false),
    .define [n!"firstAddr"] (.call (.var n!"Load") [(.call (.dot (.call (.var n!"Param") [(.var n!"pOut")] false) n!"Base") [] false), (.call (.var n!"GP64") [] false)] false),
    .define [n!"secondAddr"] (.call (.var n!"GP64") [] false),
    .expr (.call (.var n!"MOVQ") [(.var n!"firstAddr"), (.var n!"secondAddr")] false),
    .define [n!"lenAddr", n!"lenValue"] (.call (.dot (.var n!"shared") n!"LenValueAddr") [(.var n!"ctrl"), (.var n!"false"), (.var n!"pLenTable")] false),
    .expr (.call (.var n!"MOVBQZX") [(.var n!"lenAddr"), (.var n!"lenValue")] false),
    .expr (.call (.var n!"ADDQ") [(.var n!"lenValue"), (.var n!"secondAddr")] false),
    .expr (.call (.var n!"VMOVDQU") [(.var n!"firstFour"), (.lit (.qual n!"operand" n!"Mem") [(n!"Base", (.var n!"firstAddr"))])] false),
    .expr (.call (.var n!"VMOVDQU") [(.var n!"secondFour"), (.lit (.qual n!"operand" n!"Mem") [(n!"Base", (.var n!"secondAddr"))])] false),
    .expr (.call (.var n!"RET") [] false)]

/-- `/repo/pkg/encode/main/asm.go` -/
def encAsm : File where
  pkg := n!"main"
  imports := [n!"fmt", n!"log", n!"github.com/mmcloughlin/avo/operand", n!"github.com/mmcloughlin/avo/reg", n!"github.com/theMPatel/streamvbyte-simdgo/pkg/shared"]
  dots := [n!"github.com/mmcloughlin/avo/build"]
  types := []
  consts := [(n!"name", (.str [80, 117, 116, 56, 117, 105, 110, 116, 51, 50, 70, 97, 115, 116, 65, 115, 109])), (n!"nameDelta", (.str [80, 117, 116, 56, 117, 105, 110, 116, 51, 50, 68, 101, 108, 116, 97, 70, 97, 115, 116, 65, 115, 109])), (n!"pIn", (.str [105, 110])), (n!"pOut", (.str [111, 117, 116, 66, 121, 116, 101, 115])), (n!"pShuffle", (.str [115, 104, 117, 102, 102, 108, 101])), (n!"pLenTable", (.str [108, 101, 110, 84, 97, 98, 108, 101])), (n!"pPrev", (.str [112, 114, 101, 118])), (n!"pR", (.str [114]))]
  vars := [(n!"signature", (.call (.dot (.var n!"fmt") n!"Sprintf") [(.str [102, 117, 110, 99, 40, 37, 115, 32, 91, 93, 117, 105, 110, 116, 51, 50, 44, 32, 37, 115, 32, 91, 93, 98, 121, 116, 101, 44, 32, 37, 115, 32, 42, 91, 50, 53, 54, 93, 91, 49, 54, 93, 117, 105, 110, 116, 56, 44, 32, 37, 115, 32, 42, 91, 50, 53, 54, 93, 117, 105, 110, 116, 56, 41, 32, 40, 37, 115, 32, 117, 105, 110, 116, 49, 54, 41]), (.var n!"pIn"), (.var n!"pOut"), (.var n!"pShuffle"), (.var n!"pLenTable"), (.var n!"pR")] false)), (n!"signatureDelta", (.call (.dot (.var n!"fmt") n!"Sprintf") [(.str [102, 117, 110, 99, 40, 37, 115, 32, 91, 93, 117, 105, 110, 116, 51, 50, 44, 32, 37, 115, 32, 91, 93, 98, 121, 116, 101, 44, 32, 37, 115, 32, 117, 105, 110, 116, 51, 50, 44, 32, 37, 115, 32, 42, 91, 50, 53, 54, 93, 91, 49, 54, 93, 117, 105, 110, 116, 56, 44, 32, 37, 115, 32, 42, 91, 50, 53, 54, 93, 117, 105, 110, 116, 56, 41, 32, 40, 37, 115, 32, 117, 105, 110, 116, 49, 54, 41]), (.var n!"pIn"), (.var n!"pOut"), (.var n!"pPrev"), (.var n!"pShuffle"), (.var n!"pLenTable"), (.var n!"pR")] false)), (n!"mask1111R", (.call (.var n!"ConstData") [(.str [109, 97, 115, 107, 48, 49, 48, 49]), (.call (.dot (.var n!"operand") n!"U16") [(.num 257)] false)] false)), (n!"mask7F00R", (.call (.var n!"ConstData") [(.str [109, 97, 115, 107, 55, 70, 48, 48]), (.call (.dot (.var n!"operand") n!"U16") [(.num 32512)] false)] false))]
  funcs := [encAsm_main, encAsm_differential, encAsm_regular, encAsm_coreAlgorithm]

/-! ## `/repo/pkg/decode/main/asm.go` -/

/-- `main` -/
def decAsm_main : Func where
  name := n!"main"
  params := []
  results := []
  body := [
    .expr (.call (.var n!"regular") [] false),
    .expr (.call (.var n!"differential") [] false),
    .expr (.call (.var n!"Generate") [] false)]

/-- `regular` -/
def decAsm_regular : Func where
  name := n!"regular"
  params := []
  results := []
  body := [
    .expr (.call (.var n!"TEXT") [(.var n!"name"), (.var n!"NOSPLIT"), (.var n!"signature")] false),
    .define [n!"firstFour", n!"secondFour"] (.call (.var n!"coreAlgorithm") [] false),
    .define [n!"outBase"] (.lit (.qual n!"operand" n!"Mem") [(n!"Base", (.call (.var n!"Load") [(.call (.dot (.call (.var n!"Param") [(.var n!"pOut")] false) n!"Base") [] false), (.call (.var n!"GP64") [] false)] false))]),
    .expr (.call (.var n!"VMOVDQU") [(.var n!"firstFour"), (.var n!"outBase")] false),
    .expr (.call (.var n!"VMOVDQU") [(.var n!"secondFour"), (.call (.dot (.var n!"outBase") n!"Offset") [(.num 16)] false)] false),
    .expr (.call (.var n!"RET") [] false)]

/-- `differential` -/
def decAsm_differential : Func where
  name := n!"differential"
  params := []
  results := []
  body := [
    .expr (.call (.var n!"TEXT") [(.var n!"nameDelta"), (.var n!"NOSPLIT"), (.var n!"signatureDelta")] false),
    .define [n!"firstFour", n!"secondFour"] (.call (.var n!"coreAlgorithm") [] false),
    .define [n!"prevSingular", n!"err"] (.call (.dot (.call (.var n!"Param") [(.var n!"pPrev")] false) n!"Resolve") [] false),
    .ite [] (.bin .ne (.var n!"err") (.var n!"nil")) [
      .expr (.call (.dot (.var n!"log") n!"Fatalf") [(.str [102, 97, 105, 108, 101, 100, 32, 116, 111, 32, 103, 101, 116, 32, 97, 100, 100, 114, 32, 111, 102, 32, 112, 114, 101, 118])] false)] [],
    .define [n!"prev"] (.call (.var n!"XMM") [] false),
    .expr (.call (.var n!"VBROADCASTSS") [(.dot (.var n!"prevSingular") n!"Addr"), (.var n!"prev")] false),
    .expr (.call (.var n!"undoDelta") [(.var n!"firstFour"), (.var n!"prev")] false),
    .expr (.call (.var n!"VPSHUFD") [(.call (.dot (.var n!"operand") n!"Imm") [(.num 255)] false), (.var n!"firstFour"), (.var n!"prev")] false),
    .expr (.call (.var n!"undoDelta") [(.var n!"secondFour"), (.var n!"prev")] false),
    .define [n!"outBase"] (.lit (.qual n!"operand" n!"Mem") [(n!"Base", (.call (.var n!"Load") [(.call (.dot (.call (.var n!"Param") [(.var n!"pOut")] false) n!"Base") [] false), (.call (.var n!"GP64") [] false)] false))]),
    .expr (.call (.var n!"VMOVDQU") [(.var n!"firstFour"), (.var n!"outBase")] false),
    .expr (.call (.var n!"VMOVDQU") [(.var n!"secondFour"), (.call (.dot (.var n!"outBase") n!"Offset") [(.num 16)] false)] false),
    .expr (.call (.var n!"RET") [] false)]

/-- `undoDelta` -/
def decAsm_undoDelta : Func where
  name := n!"undoDelta"
  params := [(n!"four", (.qual n!"reg" n!"VecVirtual")), (n!"prev", (.qual n!"reg" n!"VecVirtual"))]
  results := []
  body := [
    .define [n!"adder"] (.call (.var n!"XMM") [] false),
    .expr (.call (.var n!"VPSLLDQ") [(.call (.dot (.var n!"operand") n!"Imm") [(.num 4)] false), (.var n!"four"), (.var n!"adder")] false),
    .expr (.call (.var n!"VPADDD") [(.var n!"four"), (.var n!"adder"), (.var n!"four")] false),
    .expr (.call (.var n!"VPSLLDQ") [(.call (.dot (.var n!"operand") n!"Imm") [(.num 8)] false), (.var n!"four"), (.var n!"adder")] false),
    .expr (.call (.var n!"VPADDD") [(.var n!"four"), (.var n!"prev"), (.var n!"four")] false),
    .expr (.call (.var n!"VPADDD") [(.var n!"four"), (.var n!"adder"), (.var n!"four")] false)]

/-- `coreAlgorithm` -/
def decAsm_coreAlgorithm : Func where
  name := n!"coreAlgorithm"
  params := []
  results := [(0, (.qual n!"reg" n!"VecVirtual")), (0, (.qual n!"reg" n!"VecVirtual"))]
  body := [
    .define [n!"ctrl"] (.call (.var n!"GP64") [] false),
    .expr (.call (.var n!"Load") [(.call (.var n!"Param") [(.var n!"pCtrl")] false), (.var n!"ctrl")] false),
    .define [n!"shuffleBase"] (.call (.var n!"Load") [(.call (.var n!"Param") [(.var n!"pShuffle")] false), (.call (.var n!"GP64") [] false)] false),
    .define [n!"shuffleA"] (.call (.dot (.var n!"shared") n!"CalculateShuffleAddrFromCtrl") [(.var n!"shuffleBase"), (.var n!"ctrl"), (.var n!"false")] false),
    .define [n!"shuffleB"] (.call (.dot (.var n!"shared") n!"CalculateShuffleAddrFromCtrl") [(.var n!"shuffleBase"), (.var n!"ctrl"), (.var n!"true")] false),
    .define [n!"firstBlock"] (.call (.var n!"Load") [(.call (.dot (.call (.var n!"Param") [(.var n!"pIn")] false) n!"Base") [] false), (.call (.var n!"GP64") [] false)] false),
    .define [n!"secondBlock"] (.call (.var n!"GP64") [] false),
    .expr (.call (.var n!"MOVQ") [(.var n!"firstBlock"), (.var n!"secondBlock")] false),
    .define [n!"lowerAddr", n!"lowerSize"] (.call (.dot (.var n!"shared") n!"LenValueAddr") [(.var n!"ctrl"), (.var n!"false"), (.var n!"pLenTable")] false),
    .expr (.call (.var n!"MOVBQZX") [(.var n!"lowerAddr"), (.var n!"lowerSize")] false),
    .expr (.call (.var n!"ADDQ") [(.var n!"lowerSize"), (.var n!"secondBlock")] false),
    .define [n!"firstFour"] (.call (.var n!"XMM") [] false),
    .define [n!"secondFour"] (.call (.var n!"XMM") [] false),
    .expr (.call (.var n!"VLDDQU") [(.lit (.qual n!"operand" n!"Mem") [(n!"Base", (.var n!"firstBlock"))]), (.var n!"firstFour")] false),
    .expr (.call (.var n!"VLDDQU") [(.lit (.qual n!"operand" n!"Mem") [(n!"Base", (.var n!"secondBlock"))]), (.var n!"secondFour")] false),
    .expr (.call (.var n!"VPSHUFB") [(.var n!"shuffleA"), (.var n!"firstFour"), (.var n!"firstFour")] false),
    .expr (.call (.var n!"VPSHUFB") [(.var n!"shuffleB"), (.var n!"secondFour"), (.var n!"secondFour")] false),
    .ret [(.var n!"firstFour"), (.var n!"secondFour")]]

/-- `/repo/pkg/decode/main/asm.go` -/
def decAsm : File where
  pkg := n!"main"
  imports := [n!"fmt", n!"log", n!"github.com/mmcloughlin/avo/operand", n!"github.com/mmcloughlin/avo/reg", n!"github.com/theMPatel/streamvbyte-simdgo/pkg/shared"]
  dots := [n!"github.com/mmcloughlin/avo/build"]
  types := []
  consts := [(n!"name", (.str [71, 101, 116, 56, 117, 105, 110, 116, 51, 50, 70, 97, 115, 116, 65, 115, 109])), (n!"nameDelta", (.str [71, 101, 116, 56, 117, 105, 110, 116, 51, 50, 68, 101, 108, 116, 97, 70, 97, 115, 116, 65, 115, 109])), (n!"pIn", (.str [105, 110])), (n!"pOut", (.str [111, 117, 116])), (n!"pCtrl", (.str [99, 116, 114, 108])), (n!"pShuffle", (.str [115, 104, 117, 102, 102, 108, 101])), (n!"pLenTable", (.str [108, 101, 110, 84, 97, 98, 108, 101])), (n!"pPrev", (.str [112, 114, 101, 118]))]
  vars := [(n!"signature", (.call (.dot (.var n!"fmt") n!"Sprintf") [(.str [102, 117, 110, 99, 40, 37, 115, 32, 91, 93, 98, 121, 116, 101, 44, 32, 37, 115, 32, 91, 93, 117, 105, 110, 116, 51, 50, 44, 32, 37, 115, 32, 117, 105, 110, 116, 49, 54, 44, 32, 37, 115, 32, 42, 91, 50, 53, 54, 93, 91, 49, 54, 93, 117, 105, 110, 116, 56, 44, 32, 37, 115, 32, 42, 91, 50, 53, 54, 93, 117, 105, 110, 116, 56, 41]), (.var n!"pIn"), (.var n!"pOut"), (.var n!"pCtrl"), (.var n!"pShuffle"), (.var n!"pLenTable")] false)), (n!"signatureDelta", (.call (.dot (.var n!"fmt") n!"Sprintf") [(.str [102, 117, 110, 99, 40, 37, 115, 32, 91, 93, 98, 121, 116, 101, 44, 32, 37, 115, 32, 91, 93, 117, 105, 110, 116, 51, 50, 44, 32, 37, 115, 32, 117, 105, 110, 116, 49, 54, 44, 32, 37, 115, 32, 117, 105, 110, 116, 51, 50, 44, 32, 37, 115, 32, 42, 91, 50, 53, 54, 93, 91, 49, 54, 93, 117, 105, 110, 116, 56, 44, 32, 37, 115, 32, 42, 91, 50, 53, 54, 93, 117, 105, 110, 116, 56, 41]), (.var n!"pIn"), (.var n!"pOut"), (.var n!"pCtrl"), (.var n!"pPrev"), (.var n!"pShuffle"), (.var n!"pLenTable")] false))]
  funcs := [decAsm_main, decAsm_regular, decAsm_differential, decAsm_undoDelta, decAsm_coreAlgorithm]

/-! ## `/repo/pkg/util/rand.go` -/

/-- `randUint32Range` -/
def rand_randUint32Range : Func where
  name := n!"randUint32Range"
  params := [(n!"low", (.named n!"uint32")), (n!"high", (.named n!"uint32"))]
  results := [(0, (.named n!"uint32"))]
  body := [
    .ret [(.bin .add (.bin .rem (.call (.dot (.var n!"rand") n!"Uint32") [] false) (.bin .add (.bin .sub (.var n!"high") (.var n!"low")) (.num 1))) (.var n!"low"))]]

/-- `RandUint32` -/
def rand_RandUint32 : Func where
  name := n!"RandUint32"
  params := []
  results := [(0, (.named n!"uint32"))]
  body := [
    .ret [(.call (.index (.var n!"generators") (.bin .rem (.call (.dot (.var n!"rand") n!"Int") [] false) (.num 4))) [] false)]]

/-- `/repo/pkg/util/rand.go` -/
def rand : File where
  pkg := n!"util"
  imports := [n!"math", n!"math/rand"]
  dots := []
  types := [n!"generator"]
  consts := []
  vars := [(n!"generators", (.lit (.slice (.named n!"generator")) [(0, (.func [] [(0, (.named n!"uint32"))] [
      .ret [(.call (.var n!"randUint32Range") [(.num 0), (.bin .shl (.num 1) (.num 8))] false)]])), (0, (.func [] [(0, (.named n!"uint32"))] [
      .ret [(.call (.var n!"randUint32Range") [(.bin .shl (.num 1) (.num 8)), (.bin .shl (.num 1) (.num 16))] false)]])), (0, (.func [] [(0, (.named n!"uint32"))] [
      .ret [(.call (.var n!"randUint32Range") [(.bin .shl (.num 1) (.num 16)), (.bin .shl (.num 1) (.num 24))] false)]])), (0, (.func [] [(0, (.named n!"uint32"))] [
      .ret [(.call (.var n!"randUint32Range") [(.bin .shl (.num 1) (.num 24)), (.dot (.var n!"math") n!"MaxUint32")] false)]]))]))]
  funcs := [rand_randUint32Range, rand_RandUint32]

/-! ## `/repo/pkg/util/util.go` -/

/-- `SilentClose` -/
def util_SilentClose : Func where
  name := n!"SilentClose"
  params := [(n!"closer", (.qual n!"io" n!"Closer"))]
  results := []
  body := [
    .assign [(.var n!"_")] (.call (.dot (.var n!"closer") n!"Close") [] false)]

/-- `GenUint32` -/
def util_GenUint32 : Func where
  name := n!"GenUint32"
  params := [(n!"n", (.named n!"int"))]
  results := [(0, (.slice (.named n!"uint32")))]
  body := [
    .define [n!"nums"] (.call (.var n!"make") [(.type (.slice (.named n!"uint32"))), (.var n!"n")] false),
    .loop [
      .define [n!"i"] (.num 0)] (.bin .lt (.var n!"i") (.var n!"n")) [
      .update .add (.var n!"i") (.num 1)] [
      .assign [(.index (.var n!"nums") (.var n!"i"))] (.call (.var n!"RandUint32") [] false)],
    .ret [(.var n!"nums")]]

/-- `SortUint32` -/
def util_SortUint32 : Func where
  name := n!"SortUint32"
  params := [(n!"in", (.slice (.named n!"uint32")))]
  results := []
  body := [
    .expr (.call (.dot (.var n!"sort") n!"Slice") [(.var n!"in"), (.func [(n!"i", (.named n!"int")), (n!"j", (.named n!"int"))] [(0, (.named n!"bool"))] [
      .ret [(.bin .lt (.index (.var n!"in") (.var n!"i")) (.index (.var n!"in") (.var n!"j")))]])] false)]

/-- `Delta` -/
def util_Delta : Func where
  name := n!"Delta"
  params := [(n!"in", (.slice (.named n!"uint32"))), (n!"out", (.slice (.named n!"uint32")))]
  results := []
  body := [
    .range n!"i" 0 (.var n!"in") [
      .ite [] (.bin .gt (.var n!"i") (.num 0)) [
        .assign [(.index (.var n!"out") (.var n!"i"))] (.bin .sub (.index (.var n!"in") (.var n!"i")) (.index (.var n!"in") (.bin .sub (.var n!"i") (.num 1))))] [
        .assign [(.index (.var n!"out") (.var n!"i"))] (.index (.var n!"in") (.var n!"i"))]]]

/-- `/repo/pkg/util/util.go` -/
def util : File where
  pkg := n!"util"
  imports := [n!"io", n!"sort"]
  dots := []
  types := []
  consts := []
  vars := []
  funcs := [util_SilentClose, util_GenUint32, util_SortUint32, util_Delta]

/-! ## `/repo/tools/parse_and_write_bench.go` -/

/-- `anyPrefix` -/
def bench_anyPrefix : Func where
  name := n!"anyPrefix"
  params := [(n!"in", (.named n!"string"))]
  results := [(0, (.named n!"bool"))]
  body := [
    .range n!"_" n!"p" (.var n!"validPrefixes") [
      .ite [] (.call (.dot (.var n!"strings") n!"HasPrefix") [(.var n!"in"), (.var n!"p")] false) [
        .ret [(.var n!"true")]] []],
    .ret [(.var n!"false")]]

/-- `main` -/
def bench_main : Func where
  name := n!"main"
  params := []
  results := []
  body := [
    .expr (.call (.dot (.var n!"flag") n!"Parse") [] false),
    .var n!"lines" (some (.slice (.named n!"string"))) none,
    .var n!"hasBench" none (some (.var n!"false")),
    .define [n!"scanner"] (.call (.dot (.var n!"bufio") n!"NewScanner") [(.dot (.var n!"os") n!"Stdin")] false),
    .loop [] (.call (.dot (.var n!"scanner") n!"Scan") [] false) [] [
      .define [n!"line"] (.call (.dot (.var n!"scanner") n!"Text") [] false),
      .ite [] (.call (.var n!"anyPrefix") [(.var n!"line")] false) [
        .define [n!"emitDash"] (.call (.dot (.var n!"strings") n!"HasPrefix") [(.var n!"line"), (.var n!"cpu")] false),
        .assign [(.var n!"hasBench")] (.bin .lor (.var n!"hasBench") (.call (.dot (.var n!"strings") n!"HasPrefix") [(.var n!"line"), (.var n!"benchmark")] false)),
        .define [n!"emitNewline"] (.bin .land (.var n!"hasBench") (.call (.dot (.var n!"strings") n!"HasPrefix") [(.var n!"line"), (.var n!"goos")] false)),
        .ite [] (.var n!"emitNewline") [
          .assign [(.var n!"lines")] (.call (.var n!"append") [(.var n!"lines"), (.str [])] false)] [],
        .ite [] (.var n!"hasBench") [
          .assign [(.var n!"line")] (.call (.dot (.var n!"strings") n!"TrimPrefix") [(.var n!"line"), (.var n!"benchmark")] false)] [],
        .assign [(.var n!"lines")] (.call (.var n!"append") [(.var n!"lines"), (.var n!"line")] false),
        .ite [] (.var n!"emitDash") [
          .assign [(.var n!"lines")] (.call (.var n!"append") [(.var n!"lines"), (.var n!"dashes")] false)] []] []],
    .ite [
      .define [n!"err"] (.call (.dot (.var n!"scanner") n!"Err") [] false)] (.bin .ne (.var n!"err") (.var n!"nil")) [
      .expr (.call (.dot (.var n!"log") n!"Fatalf") [(.str [102, 97, 105, 108, 101, 100, 32, 116, 111, 32, 114, 101, 97, 100, 32, 105, 110, 112, 117, 116, 58, 32, 37, 115]), (.var n!"err")] false)] [],
    .define [n!"outputFile", n!"err"] (.call (.dot (.var n!"os") n!"Open") [(.var n!"readmeFile")] false),
    .ite [] (.bin .ne (.var n!"err") (.var n!"nil")) [
      .expr (.call (.dot (.var n!"log") n!"Fatalf") [(.str [102, 97, 105, 108, 101, 100, 32, 116, 111, 32, 111, 112, 101, 110, 32, 102, 105, 108, 101, 58, 32, 37, 115, 44, 32, 37, 115]), (.var n!"readmeFile"), (.var n!"err")] false)] [],
    .define [n!"allData", n!"err"] (.call (.dot (.var n!"io") n!"ReadAll") [(.var n!"outputFile")] false),
    .ite [] (.bin .ne (.var n!"err") (.var n!"nil")) [
      .expr (.call (.dot (.var n!"log") n!"Fatalf") [(.str [102, 97, 105, 108, 101, 100, 32, 116, 111, 32, 114, 101, 97, 100, 32, 102, 105, 108, 101, 58, 32, 37, 115, 44, 32, 37, 115]), (.var n!"readmeFile"), (.var n!"err")] false)] [],
    .expr (.call (.dot (.var n!"util") n!"SilentClose") [(.var n!"outputFile")] false),
    .define [n!"bStart"] (.call (.type (.slice (.named n!"byte"))) [(.var n!"startSentinel")] false),
    .define [n!"bEnd"] (.call (.type (.slice (.named n!"byte"))) [(.var n!"endSentinel")] false),
    .define [n!"start"] (.call (.dot (.var n!"bytes") n!"Index") [(.var n!"allData"), (.var n!"bStart")] false),
    .ite [] (.bin .lt (.var n!"start") (.num 0)) [
      .expr (.call (.dot (.var n!"log") n!"Fatalf") [(.str [99, 111, 117, 108, 100, 110, 39, 116, 32, 102, 105, 110, 100, 32, 115, 116, 97, 114, 116, 32, 115, 101, 110, 116, 105, 110, 101, 108])] false)] [],
    .define [n!"restStart"] (.call (.dot (.var n!"bytes") n!"Index") [(.var n!"allData"), (.var n!"bEnd")] false),
    .var n!"final" (some (.slice (.named n!"byte"))) none,
    .assign [(.var n!"final")] (.call (.var n!"append") [(.var n!"final"), (.slice (.var n!"allData") none (some (.var n!"start")))] true),
    .assign [(.var n!"final")] (.call (.var n!"append") [(.var n!"final"), (.var n!"bStart")] true),
    .assign [(.var n!"final")] (.call (.var n!"append") [(.var n!"final"), (.call (.type (.slice (.named n!"byte"))) [(.call (.dot (.var n!"strings") n!"Join") [(.var n!"lines"), (.str [10])] false)] false)] true),
    .assign [(.var n!"final")] (.call (.var n!"append") [(.var n!"final"), (.num 10)] false),
    .assign [(.var n!"final")] (.call (.var n!"append") [(.var n!"final"), (.slice (.var n!"allData") (some (.var n!"restStart")) none)] true),
    .var n!"out" (some (.qual n!"io" n!"Writer")) none,
    .ite [] (.deref (.var n!"fWriteOut")) [
      .assign [(.var n!"outputFile"), (.var n!"err")] (.call (.dot (.var n!"os") n!"Create") [(.var n!"readmeFile")] false),
      .ite [] (.bin .ne (.var n!"err") (.var n!"nil")) [
        .expr (.call (.dot (.var n!"log") n!"Fatalf") [(.str [102, 97, 105, 108, 101, 100, 32, 116, 111, 32, 111, 112, 101, 110, 32, 102, 105, 108, 101, 58, 32, 37, 115, 44, 32, 37, 115]), (.var n!"readmeFile"), (.var n!"err")] false)] [],
      .defer (.call (.dot (.var n!"util") n!"SilentClose") [(.var n!"outputFile")] false),
      .assign [(.var n!"out")] (.var n!"outputFile")] [
      .assign [(.var n!"out")] (.dot (.var n!"os") n!"Stdout")],
    .assign [(.var n!"_"), (.var n!"err")] (.call (.dot (.var n!"out") n!"Write") [(.var n!"final")] false),
    .ite [] (.bin .ne (.var n!"err") (.var n!"nil")) [
      .expr (.call (.dot (.var n!"log") n!"Fatalf") [(.str [102, 97, 105, 108, 101, 100, 32, 116, 111, 32, 119, 114, 105, 116, 101, 32, 116, 111, 32, 102, 105, 108, 101, 58, 32, 37, 115, 44, 32, 37, 115]), (.var n!"readmeFile"), (.var n!"err")] false)] []]

/-- `/repo/tools/parse_and_write_bench.go` -/
def bench : File where
  pkg := n!"main"
  imports := [n!"bufio", n!"bytes", n!"flag", n!"io", n!"log", n!"os", n!"path/filepath", n!"strings", n!"github.com/theMPatel/streamvbyte-simdgo/pkg/util"]
  dots := []
  types := []
  consts := [(n!"goos", (.str [103, 111, 111, 115])), (n!"goarch", (.str [103, 111, 97, 114, 99, 104])), (n!"pkg", (.str [112, 107, 103])), (n!"cpu", (.str [99, 112, 117])), (n!"benchmark", (.str [66, 101, 110, 99, 104, 109, 97, 114, 107])), (n!"dashes", (.str [45, 45])), (n!"startSentinel", (.str [35, 35, 32, 66, 101, 110, 99, 104, 109, 97, 114, 107, 115, 10, 10, 96, 96, 96, 116, 101, 120, 116, 10])), (n!"endSentinel", (.str [96, 96, 96, 10]))]
  vars := [(n!"validPrefixes", (.lit (.slice (.named n!"string")) [(0, (.var n!"goos")), (0, (.var n!"goarch")), (0, (.var n!"pkg")), (0, (.var n!"cpu")), (0, (.var n!"benchmark"))])), (n!"readmeFile", (.call (.dot (.var n!"filepath") n!"Join") [(.call (.dot (.var n!"os") n!"Getenv") [(.str [83, 66, 89, 84, 69, 95, 72, 79, 77, 69])] false), (.str [82, 69, 65, 68, 77, 69, 46, 109, 100])] false)), (n!"fWriteOut", (.call (.dot (.var n!"flag") n!"Bool") [(.str [119]), (.var n!"false"), (.str [119, 114, 105, 116, 101, 32, 111, 117, 116, 32, 116, 111, 32, 114, 101, 97, 100, 109, 101])] false))]
  funcs := [bench_anyPrefix, bench_main]

end SVB.Script.Files
