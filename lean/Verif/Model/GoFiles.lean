import Verif.Model.GoText

/-!
# The Go files of `/repo/pkg`, parsed

GENERATED by `/verif/scripts/print_gofiles.txt`.  `Verif.Proofs.GoParse` proves that this is what `parseGo` returns for the
texts in `Sources.lean` and `GoSources.lean`.
-/

set_option autoImplicit false

namespace SVB.Go.Files

/-! ## `/repo/pkg/shared/gen.go` -/

/-- `ControlByteToSize` -/
def gen_ControlByteToSize : Func where
  name := n!"ControlByteToSize"
  params := [(n!"in", (.named n!"uint8"))]
  results := [(0, (.named n!"int"))]
  body := some [
    .ret [(.call (.var n!"int") [(.index (.var n!"PerControlLenTable") (.var n!"in"))])]]

/-- `ControlByteToSizeTwo` -/
def gen_ControlByteToSizeTwo : Func where
  name := n!"ControlByteToSizeTwo"
  params := [(n!"in", (.named n!"uint16"))]
  results := [(0, (.named n!"int"))]
  body := some [
    .ret [(.call (.var n!"int") [(.bin .add (.index (.var n!"PerControlLenTable") (.bin .and (.var n!"in") (.num 255))) (.index (.var n!"PerControlLenTable") (.bin .shr (.var n!"in") (.num 8))))])]]

/-- `/repo/pkg/shared/gen.go` -/
def gen : File where
  pkg := n!"shared"
  imports := []
  types := []
  consts := []
  vars := []
  funcs := [gen_ControlByteToSize, gen_ControlByteToSizeTwo]

/-! ## `/repo/pkg/shared/mode.go` -/


/-- `/repo/pkg/shared/mode.go` -/
def mode : File where
  pkg := n!"shared"
  imports := []
  types := [(n!"PerformanceMode", .of (.named n!"int")), (n!"CheckMode", .fn [] [(0, (.named n!"PerformanceMode"))])]
  consts := [(n!"Normal", (some (.named n!"PerformanceMode")), (.var n!"iota"), 0), (n!"Fast", (some (.named n!"PerformanceMode")), (.var n!"iota"), 1)]
  vars := []
  funcs := []

/-! ## `/repo/pkg/encode/encode.go` -/

/-- `init` -/
def enc_init : Func where
  name := n!"init"
  params := []
  results := []
  body := some [
    .ite (.bin .eq (.call (.var n!"GetMode") []) (.dot (.var n!"shared") n!"Fast")) [
      .assign (.var n!"putImpl") (.var n!"Put8uint32Fast"),
      .assign (.var n!"putDeltaImpl") (.var n!"Put8uint32DeltaFast")] [
      .assign (.var n!"putImpl") (.var n!"Put8uint32Scalar"),
      .assign (.var n!"putDeltaImpl") (.var n!"Put8uint32DeltaScalar")]]

/-- `Put8uint32` -/
def enc_Put8uint32 : Func where
  name := n!"Put8uint32"
  params := [(n!"in", (.slice (.named n!"uint32"))), (n!"out", (.slice (.named n!"byte")))]
  results := [(0, (.named n!"uint16"))]
  body := some [
    .ret [(.call (.var n!"putImpl") [(.var n!"in"), (.var n!"out")])]]

/-- `Put8uint32Delta` -/
def enc_Put8uint32Delta : Func where
  name := n!"Put8uint32Delta"
  params := [(n!"in", (.slice (.named n!"uint32"))), (n!"out", (.slice (.named n!"byte"))), (n!"prev", (.named n!"uint32"))]
  results := [(0, (.named n!"uint16"))]
  body := some [
    .ret [(.call (.var n!"putDeltaImpl") [(.var n!"in"), (.var n!"out"), (.var n!"prev")])]]

/-- `PutUint32Scalar` -/
def enc_PutUint32Scalar : Func where
  name := n!"PutUint32Scalar"
  params := [(n!"in", (.slice (.named n!"uint32"))), (n!"out", (.slice (.named n!"byte"))), (n!"count", (.named n!"int"))]
  results := [(0, (.named n!"uint8"))]
  body := some [
    .ite (.bin .eq (.var n!"count") (.num 0)) [
      .ret [(.num 0)]] [],
    .ite (.bin .gt (.var n!"count") (.num 4)) [
      .assign (.var n!"count") (.num 4)] [],
    .var n!"ctrl" (some (.named n!"uint8")) none,
    .var n!"shift" none (some (.num 0)),
    .var n!"total" none (some (.num 0)),
    .loop [
      .define [n!"i"] (.num 0)] (.bin .lt (.var n!"i") (.var n!"count")) [
      .update .add (.var n!"i") (.num 1)] [
      .define [n!"size"] (.call (.var n!"encodeOne") [(.index (.var n!"in") (.var n!"i")), (.from (.var n!"out") (.var n!"total"))]),
      .update .add (.var n!"total") (.var n!"size"),
      .update .or (.var n!"ctrl") (.bin .shl (.call (.var n!"uint8") [(.bin .sub (.var n!"size") (.num 1))]) (.var n!"shift")),
      .update .add (.var n!"shift") (.num 2)],
    .ret [(.var n!"ctrl")]]

/-- `PutUint32DeltaScalar` -/
def enc_PutUint32DeltaScalar : Func where
  name := n!"PutUint32DeltaScalar"
  params := [(n!"in", (.slice (.named n!"uint32"))), (n!"out", (.slice (.named n!"byte"))), (n!"count", (.named n!"int")), (n!"prev", (.named n!"uint32"))]
  results := [(0, (.named n!"uint8"))]
  body := some [
    .ite (.bin .eq (.var n!"count") (.num 0)) [
      .ret [(.num 0)]] [],
    .ite (.bin .gt (.var n!"count") (.num 4)) [
      .assign (.var n!"count") (.num 4)] [],
    .var n!"ctrl" (some (.named n!"uint8")) none,
    .var n!"shift" none (some (.num 0)),
    .var n!"total" none (some (.num 0)),
    .loop [
      .define [n!"i"] (.num 0)] (.bin .lt (.var n!"i") (.var n!"count")) [
      .update .add (.var n!"i") (.num 1)] [
      .define [n!"size"] (.call (.var n!"encodeOne") [(.bin .sub (.index (.var n!"in") (.var n!"i")) (.var n!"prev")), (.from (.var n!"out") (.var n!"total"))]),
      .update .add (.var n!"total") (.var n!"size"),
      .update .or (.var n!"ctrl") (.bin .shl (.call (.var n!"uint8") [(.bin .sub (.var n!"size") (.num 1))]) (.var n!"shift")),
      .update .add (.var n!"shift") (.num 2),
      .assign (.var n!"prev") (.index (.var n!"in") (.var n!"i"))],
    .ret [(.var n!"ctrl")]]

/-- `Put8uint32Scalar` -/
def enc_Put8uint32Scalar : Func where
  name := n!"Put8uint32Scalar"
  params := [(n!"in", (.slice (.named n!"uint32"))), (n!"out", (.slice (.named n!"byte")))]
  results := [(0, (.named n!"uint16"))]
  body := some [
    .var n!"ctrl" (some (.named n!"uint16")) none,
    .define [n!"first"] (.call (.var n!"Put4uint32Scalar") [(.var n!"in"), (.var n!"out")]),
    .update .or (.var n!"ctrl") (.call (.var n!"uint16") [(.var n!"first")]),
    .define [n!"encoded"] (.call (.dot (.var n!"shared") n!"ControlByteToSize") [(.var n!"first")]),
    .define [n!"second"] (.call (.var n!"Put4uint32Scalar") [(.from (.var n!"in") (.num 4)), (.from (.var n!"out") (.var n!"encoded"))]),
    .ret [(.bin .or (.var n!"ctrl") (.bin .shl (.call (.var n!"uint16") [(.var n!"second")]) (.num 8)))]]

/-- `Put4uint32Scalar` -/
def enc_Put4uint32Scalar : Func where
  name := n!"Put4uint32Scalar"
  params := [(n!"in", (.slice (.named n!"uint32"))), (n!"out", (.slice (.named n!"byte")))]
  results := [(0, (.named n!"uint8"))]
  body := some [
    .assign (.var n!"_") (.index (.var n!"in") (.num 3)),
    .define [n!"num0"] (.index (.var n!"in") (.num 0)),
    .define [n!"num1"] (.index (.var n!"in") (.num 1)),
    .define [n!"num2"] (.index (.var n!"in") (.num 2)),
    .define [n!"num3"] (.index (.var n!"in") (.num 3)),
    .define [n!"len0"] (.call (.var n!"encodeOne") [(.var n!"num0"), (.var n!"out")]),
    .define [n!"len1"] (.call (.var n!"encodeOne") [(.var n!"num1"), (.from (.var n!"out") (.var n!"len0"))]),
    .define [n!"len2"] (.call (.var n!"encodeOne") [(.var n!"num2"), (.from (.var n!"out") (.bin .add (.var n!"len0") (.var n!"len1")))]),
    .define [n!"len3"] (.call (.var n!"encodeOne") [(.var n!"num3"), (.from (.var n!"out") (.bin .add (.bin .add (.var n!"len0") (.var n!"len1")) (.var n!"len2")))]),
    .ret [(.call (.var n!"uint8") [(.bin .or (.bin .or (.bin .or (.bin .sub (.var n!"len0") (.num 1)) (.bin .shl (.bin .sub (.var n!"len1") (.num 1)) (.num 2))) (.bin .shl (.bin .sub (.var n!"len2") (.num 1)) (.num 4))) (.bin .shl (.bin .sub (.var n!"len3") (.num 1)) (.num 6)))])]]

/-- `Put8uint32DeltaScalar` -/
def enc_Put8uint32DeltaScalar : Func where
  name := n!"Put8uint32DeltaScalar"
  params := [(n!"in", (.slice (.named n!"uint32"))), (n!"out", (.slice (.named n!"byte"))), (n!"prev", (.named n!"uint32"))]
  results := [(0, (.named n!"uint16"))]
  body := some [
    .var n!"ctrl" (some (.named n!"uint16")) none,
    .define [n!"first"] (.call (.var n!"Put4uint32DeltaScalar") [(.var n!"in"), (.var n!"out"), (.var n!"prev")]),
    .update .or (.var n!"ctrl") (.call (.var n!"uint16") [(.var n!"first")]),
    .define [n!"encoded"] (.call (.dot (.var n!"shared") n!"ControlByteToSize") [(.var n!"first")]),
    .define [n!"second"] (.call (.var n!"Put4uint32DeltaScalar") [(.from (.var n!"in") (.num 4)), (.from (.var n!"out") (.var n!"encoded")), (.index (.var n!"in") (.num 3))]),
    .ret [(.bin .or (.var n!"ctrl") (.bin .shl (.call (.var n!"uint16") [(.var n!"second")]) (.num 8)))]]

/-- `Put4uint32DeltaScalar` -/
def enc_Put4uint32DeltaScalar : Func where
  name := n!"Put4uint32DeltaScalar"
  params := [(n!"in", (.slice (.named n!"uint32"))), (n!"out", (.slice (.named n!"byte"))), (n!"prev", (.named n!"uint32"))]
  results := [(0, (.named n!"uint8"))]
  body := some [
    .assign (.var n!"_") (.index (.var n!"in") (.num 3)),
    .define [n!"num0"] (.bin .sub (.index (.var n!"in") (.num 0)) (.var n!"prev")),
    .define [n!"num1"] (.bin .sub (.index (.var n!"in") (.num 1)) (.index (.var n!"in") (.num 0))),
    .define [n!"num2"] (.bin .sub (.index (.var n!"in") (.num 2)) (.index (.var n!"in") (.num 1))),
    .define [n!"num3"] (.bin .sub (.index (.var n!"in") (.num 3)) (.index (.var n!"in") (.num 2))),
    .define [n!"len0"] (.call (.var n!"encodeOne") [(.var n!"num0"), (.var n!"out")]),
    .define [n!"len1"] (.call (.var n!"encodeOne") [(.var n!"num1"), (.from (.var n!"out") (.var n!"len0"))]),
    .define [n!"len2"] (.call (.var n!"encodeOne") [(.var n!"num2"), (.from (.var n!"out") (.bin .add (.var n!"len0") (.var n!"len1")))]),
    .define [n!"len3"] (.call (.var n!"encodeOne") [(.var n!"num3"), (.from (.var n!"out") (.bin .add (.bin .add (.var n!"len0") (.var n!"len1")) (.var n!"len2")))]),
    .ret [(.call (.var n!"uint8") [(.bin .or (.bin .or (.bin .or (.bin .sub (.var n!"len0") (.num 1)) (.bin .shl (.bin .sub (.var n!"len1") (.num 1)) (.num 2))) (.bin .shl (.bin .sub (.var n!"len2") (.num 1)) (.num 4))) (.bin .shl (.bin .sub (.var n!"len3") (.num 1)) (.num 6)))])]]

/-- `encodeOne` -/
def enc_encodeOne : Func where
  name := n!"encodeOne"
  params := [(n!"num", (.named n!"uint32")), (n!"out", (.slice (.named n!"byte")))]
  results := [(0, (.named n!"int"))]
  body := some [
    .define [n!"size"] (.call (.var n!"max") [(.num 1), (.bin .sub (.num 4) (.bin .div (.call (.dot (.var n!"bits") n!"LeadingZeros32") [(.var n!"num")]) (.num 8)))]),
    .switch (.var n!"size") [
      ((.num 4), [
      .assign (.index (.var n!"out") (.num 3)) (.call (.var n!"byte") [(.bin .shr (.var n!"num") (.num 24))])], true),
      ((.num 3), [
      .assign (.index (.var n!"out") (.num 2)) (.call (.var n!"byte") [(.bin .shr (.var n!"num") (.num 16))])], true),
      ((.num 2), [
      .assign (.index (.var n!"out") (.num 1)) (.call (.var n!"byte") [(.bin .shr (.var n!"num") (.num 8))])], true),
      ((.num 1), [
      .assign (.index (.var n!"out") (.num 0)) (.call (.var n!"byte") [(.var n!"num")])], false)],
    .ret [(.var n!"size")]]

/-- `max` -/
def enc_max : Func where
  name := n!"max"
  params := [(n!"a", (.named n!"int")), (n!"b", (.named n!"int"))]
  results := [(0, (.named n!"int"))]
  body := some [
    .ite (.bin .lt (.var n!"a") (.var n!"b")) [
      .ret [(.var n!"b")]] [],
    .ret [(.var n!"a")]]

/-- `/repo/pkg/encode/encode.go` -/
def enc : File where
  pkg := n!"encode"
  imports := [n!"math/bits", n!"github.com/theMPatel/streamvbyte-simdgo/pkg/shared"]
  types := [(n!"Put8Impl", .fn [(n!"in", (.slice (.named n!"uint32"))), (n!"out", (.slice (.named n!"byte")))] [(n!"ctrl", (.named n!"uint16"))]), (n!"Put8DeltaImpl", .fn [(n!"in", (.slice (.named n!"uint32"))), (n!"out", (.slice (.named n!"byte"))), (n!"prev", (.named n!"uint32"))] [(n!"ctrl", (.named n!"uint16"))])]
  consts := [(n!"MaxBytesPerNum", none, (.num 4), 0)]
  vars := [(n!"putImpl", (.named n!"Put8Impl")), (n!"putDeltaImpl", (.named n!"Put8DeltaImpl"))]
  funcs := [enc_init, enc_Put8uint32, enc_Put8uint32Delta, enc_PutUint32Scalar, enc_PutUint32DeltaScalar, enc_Put8uint32Scalar, enc_Put4uint32Scalar, enc_Put8uint32DeltaScalar, enc_Put4uint32DeltaScalar, enc_encodeOne, enc_max]

/-! ## `/repo/pkg/encode/encode_amd64.go` -/

/-- `GetMode` -/
def encAmd64_GetMode : Func where
  name := n!"GetMode"
  params := []
  results := [(0, (.qual n!"shared" n!"PerformanceMode"))]
  body := some [
    .ite (.bin .land (.dot (.dot (.var n!"cpu") n!"X86") n!"HasAVX") (.dot (.dot (.var n!"cpu") n!"X86") n!"HasAVX2")) [
      .ret [(.dot (.var n!"shared") n!"Fast")]] [],
    .ret [(.dot (.var n!"shared") n!"Normal")]]

/-- `Put8uint32Fast` -/
def encAmd64_Put8uint32Fast : Func where
  name := n!"Put8uint32Fast"
  params := [(n!"in", (.slice (.named n!"uint32"))), (n!"out", (.slice (.named n!"byte")))]
  results := [(0, (.named n!"uint16"))]
  body := some [
    .ret [(.call (.var n!"Put8uint32FastAsm") [(.var n!"in"), (.var n!"out"), (.dot (.var n!"shared") n!"EncodeShuffleTable"), (.dot (.var n!"shared") n!"PerControlLenTable")])]]

/-- `Put8uint32DeltaFast` -/
def encAmd64_Put8uint32DeltaFast : Func where
  name := n!"Put8uint32DeltaFast"
  params := [(n!"in", (.slice (.named n!"uint32"))), (n!"out", (.slice (.named n!"byte"))), (n!"prev", (.named n!"uint32"))]
  results := [(0, (.named n!"uint16"))]
  body := some [
    .ret [(.call (.var n!"Put8uint32DeltaFastAsm") [(.var n!"in"), (.var n!"out"), (.var n!"prev"), (.dot (.var n!"shared") n!"EncodeShuffleTable"), (.dot (.var n!"shared") n!"PerControlLenTable")])]]

/-- `Put8uint32FastAsm` -/
def encAmd64_Put8uint32FastAsm : Func where
  name := n!"Put8uint32FastAsm"
  params := [(n!"in", (.slice (.named n!"uint32"))), (n!"outBytes", (.slice (.named n!"byte"))), (n!"shuffle", (.ptr (.array 256 (.array 16 (.named n!"uint8"))))), (n!"lenTable", (.ptr (.array 256 (.named n!"uint8"))))]
  results := [(n!"r", (.named n!"uint16"))]
  body := none

/-- `Put8uint32DeltaFastAsm` -/
def encAmd64_Put8uint32DeltaFastAsm : Func where
  name := n!"Put8uint32DeltaFastAsm"
  params := [(n!"in", (.slice (.named n!"uint32"))), (n!"outBytes", (.slice (.named n!"byte"))), (n!"prev", (.named n!"uint32")), (n!"shuffle", (.ptr (.array 256 (.array 16 (.named n!"uint8"))))), (n!"lenTable", (.ptr (.array 256 (.named n!"uint8"))))]
  results := [(n!"r", (.named n!"uint16"))]
  body := none

/-- `/repo/pkg/encode/encode_amd64.go` -/
def encAmd64 : File where
  pkg := n!"encode"
  imports := [n!"github.com/theMPatel/streamvbyte-simdgo/pkg/shared", n!"golang.org/x/sys/cpu"]
  types := []
  consts := []
  vars := []
  funcs := [encAmd64_GetMode, encAmd64_Put8uint32Fast, encAmd64_Put8uint32DeltaFast, encAmd64_Put8uint32FastAsm, encAmd64_Put8uint32DeltaFastAsm]

/-! ## `/repo/pkg/encode/encode_base.go` -/

/-- `GetMode` -/
def encBase_GetMode : Func where
  name := n!"GetMode"
  params := []
  results := [(0, (.qual n!"shared" n!"PerformanceMode"))]
  body := some [
    .ret [(.dot (.var n!"shared") n!"Normal")]]

/-- `Put8uint32Fast` -/
def encBase_Put8uint32Fast : Func where
  name := n!"Put8uint32Fast"
  params := [(n!"in", (.slice (.named n!"uint32"))), (n!"out", (.slice (.named n!"byte")))]
  results := [(0, (.named n!"uint16"))]
  body := some [
    .expr (.call (.var n!"panic") [(.str [117, 110, 114, 101, 97, 99, 104, 97, 98, 108, 101])])]

/-- `Put8uint32DeltaFast` -/
def encBase_Put8uint32DeltaFast : Func where
  name := n!"Put8uint32DeltaFast"
  params := [(n!"in", (.slice (.named n!"uint32"))), (n!"out", (.slice (.named n!"byte"))), (n!"prev", (.named n!"uint32"))]
  results := [(0, (.named n!"uint16"))]
  body := some [
    .expr (.call (.var n!"panic") [(.str [117, 110, 114, 101, 97, 99, 104, 97, 98, 108, 101])])]

/-- `/repo/pkg/encode/encode_base.go` -/
def encBase : File where
  pkg := n!"encode"
  imports := [n!"github.com/theMPatel/streamvbyte-simdgo/pkg/shared"]
  types := []
  consts := []
  vars := []
  funcs := [encBase_GetMode, encBase_Put8uint32Fast, encBase_Put8uint32DeltaFast]

/-! ## `/repo/pkg/decode/decode.go` -/

/-- `init` -/
def dec_init : Func where
  name := n!"init"
  params := []
  results := []
  body := some [
    .ite (.bin .eq (.call (.var n!"GetMode") []) (.dot (.var n!"shared") n!"Fast")) [
      .assign (.var n!"getImpl") (.var n!"Get8uint32Fast"),
      .assign (.var n!"getDeltaImpl") (.var n!"Get8uint32DeltaFast")] [
      .assign (.var n!"getImpl") (.var n!"Get8uint32Scalar"),
      .assign (.var n!"getDeltaImpl") (.var n!"Get8uint32DeltaScalar")]]

/-- `Get8uint32` -/
def dec_Get8uint32 : Func where
  name := n!"Get8uint32"
  params := [(n!"in", (.slice (.named n!"byte"))), (n!"out", (.slice (.named n!"uint32"))), (n!"ctrl", (.named n!"uint16"))]
  results := []
  body := some [
    .expr (.call (.var n!"getImpl") [(.var n!"in"), (.var n!"out"), (.var n!"ctrl")])]

/-- `Get8uint32Delta` -/
def dec_Get8uint32Delta : Func where
  name := n!"Get8uint32Delta"
  params := [(n!"in", (.slice (.named n!"byte"))), (n!"out", (.slice (.named n!"uint32"))), (n!"ctrl", (.named n!"uint16")), (n!"prev", (.named n!"uint32"))]
  results := []
  body := some [
    .expr (.call (.var n!"getDeltaImpl") [(.var n!"in"), (.var n!"out"), (.var n!"ctrl"), (.var n!"prev")])]

/-- `Get8uint32Scalar` -/
def dec_Get8uint32Scalar : Func where
  name := n!"Get8uint32Scalar"
  params := [(n!"in", (.slice (.named n!"byte"))), (n!"out", (.slice (.named n!"uint32"))), (n!"ctrl", (.named n!"uint16"))]
  results := []
  body := some [
    .define [n!"lower"] (.call (.var n!"uint8") [(.bin .and (.var n!"ctrl") (.num 255))]),
    .define [n!"upper"] (.call (.var n!"uint8") [(.bin .shr (.var n!"ctrl") (.num 8))]),
    .define [n!"lowerSize"] (.call (.dot (.var n!"shared") n!"ControlByteToSize") [(.var n!"lower")]),
    .expr (.call (.var n!"Get4uint32Scalar") [(.var n!"in"), (.var n!"out"), (.var n!"lower")]),
    .expr (.call (.var n!"Get4uint32Scalar") [(.from (.var n!"in") (.var n!"lowerSize")), (.from (.var n!"out") (.num 4)), (.var n!"upper")])]

/-- `Get4uint32Scalar` -/
def dec_Get4uint32Scalar : Func where
  name := n!"Get4uint32Scalar"
  params := [(n!"in", (.slice (.named n!"byte"))), (n!"out", (.slice (.named n!"uint32"))), (n!"ctrl", (.named n!"uint8"))]
  results := []
  body := some [
    .define [n!"sizes"] (.index (.dot (.var n!"shared") n!"PerNumLenTable") (.var n!"ctrl")),
    .define [n!"len3"] (.index (.var n!"sizes") (.num 3)),
    .define [n!"len2"] (.index (.var n!"sizes") (.num 2)),
    .define [n!"len1"] (.index (.var n!"sizes") (.num 1)),
    .define [n!"len0"] (.index (.var n!"sizes") (.num 0)),
    .assign (.index (.var n!"out") (.num 3)) (.call (.var n!"decodeOne") [(.from (.var n!"in") (.bin .add (.bin .add (.var n!"len0") (.var n!"len1")) (.var n!"len2"))), (.var n!"len3")]),
    .assign (.index (.var n!"out") (.num 2)) (.call (.var n!"decodeOne") [(.from (.var n!"in") (.bin .add (.var n!"len0") (.var n!"len1"))), (.var n!"len2")]),
    .assign (.index (.var n!"out") (.num 1)) (.call (.var n!"decodeOne") [(.from (.var n!"in") (.var n!"len0")), (.var n!"len1")]),
    .assign (.index (.var n!"out") (.num 0)) (.call (.var n!"decodeOne") [(.var n!"in"), (.var n!"len0")])]

/-- `GetUint32Scalar` -/
def dec_GetUint32Scalar : Func where
  name := n!"GetUint32Scalar"
  params := [(n!"in", (.slice (.named n!"byte"))), (n!"out", (.slice (.named n!"uint32"))), (n!"ctrl", (.named n!"uint8")), (n!"count", (.named n!"int"))]
  results := [(0, (.named n!"int"))]
  body := some [
    .ite (.bin .eq (.var n!"count") (.num 0)) [
      .ret [(.num 0)]] [],
    .ite (.bin .gt (.var n!"count") (.num 4)) [
      .assign (.var n!"count") (.num 4)] [],
    .define [n!"shift"] (.num 0),
    .define [n!"total"] (.num 0),
    .loop [
      .define [n!"i"] (.num 0)] (.bin .lt (.var n!"i") (.var n!"count")) [
      .update .add (.var n!"i") (.num 1)] [
      .define [n!"size"] (.bin .add (.bin .and (.bin .shr (.var n!"ctrl") (.var n!"shift")) (.num 3)) (.num 1)),
      .assign (.index (.var n!"out") (.var n!"i")) (.call (.var n!"decodeOne") [(.from (.var n!"in") (.var n!"total")), (.var n!"size")]),
      .update .add (.var n!"total") (.call (.var n!"int") [(.var n!"size")]),
      .update .add (.var n!"shift") (.num 2)],
    .ret [(.var n!"total")]]

/-- `GetUint32DeltaScalar` -/
def dec_GetUint32DeltaScalar : Func where
  name := n!"GetUint32DeltaScalar"
  params := [(n!"in", (.slice (.named n!"byte"))), (n!"out", (.slice (.named n!"uint32"))), (n!"ctrl", (.named n!"uint8")), (n!"count", (.named n!"int")), (n!"prev", (.named n!"uint32"))]
  results := [(0, (.named n!"int"))]
  body := some [
    .ite (.bin .eq (.var n!"count") (.num 0)) [
      .ret [(.num 0)]] [],
    .ite (.bin .gt (.var n!"count") (.num 4)) [
      .assign (.var n!"count") (.num 4)] [],
    .define [n!"shift"] (.num 0),
    .define [n!"total"] (.num 0),
    .loop [
      .define [n!"i"] (.num 0)] (.bin .lt (.var n!"i") (.var n!"count")) [
      .update .add (.var n!"i") (.num 1)] [
      .define [n!"size"] (.bin .add (.bin .and (.bin .shr (.var n!"ctrl") (.var n!"shift")) (.num 3)) (.num 1)),
      .define [n!"num"] (.bin .add (.call (.var n!"decodeOne") [(.from (.var n!"in") (.var n!"total")), (.var n!"size")]) (.var n!"prev")),
      .assign (.index (.var n!"out") (.var n!"i")) (.var n!"num"),
      .assign (.var n!"prev") (.var n!"num"),
      .update .add (.var n!"total") (.call (.var n!"int") [(.var n!"size")]),
      .update .add (.var n!"shift") (.num 2)],
    .ret [(.var n!"total")]]

/-- `Get8uint32DeltaScalar` -/
def dec_Get8uint32DeltaScalar : Func where
  name := n!"Get8uint32DeltaScalar"
  params := [(n!"in", (.slice (.named n!"byte"))), (n!"out", (.slice (.named n!"uint32"))), (n!"ctrl", (.named n!"uint16")), (n!"prev", (.named n!"uint32"))]
  results := []
  body := some [
    .define [n!"lower"] (.call (.var n!"uint8") [(.bin .and (.var n!"ctrl") (.num 255))]),
    .define [n!"upper"] (.call (.var n!"uint8") [(.bin .shr (.var n!"ctrl") (.num 8))]),
    .define [n!"lowerSize"] (.call (.dot (.var n!"shared") n!"ControlByteToSize") [(.var n!"lower")]),
    .expr (.call (.var n!"Get4uint32DeltaScalar") [(.var n!"in"), (.var n!"out"), (.var n!"lower"), (.var n!"prev")]),
    .expr (.call (.var n!"Get4uint32DeltaScalar") [(.from (.var n!"in") (.var n!"lowerSize")), (.from (.var n!"out") (.num 4)), (.var n!"upper"), (.index (.var n!"out") (.num 3))])]

/-- `Get4uint32DeltaScalar` -/
def dec_Get4uint32DeltaScalar : Func where
  name := n!"Get4uint32DeltaScalar"
  params := [(n!"in", (.slice (.named n!"byte"))), (n!"out", (.slice (.named n!"uint32"))), (n!"ctrl", (.named n!"uint8")), (n!"prev", (.named n!"uint32"))]
  results := []
  body := some [
    .define [n!"sizes"] (.index (.dot (.var n!"shared") n!"PerNumLenTable") (.var n!"ctrl")),
    .define [n!"len0"] (.index (.var n!"sizes") (.num 0)),
    .define [n!"len1"] (.index (.var n!"sizes") (.num 1)),
    .define [n!"len2"] (.index (.var n!"sizes") (.num 2)),
    .define [n!"len3"] (.index (.var n!"sizes") (.num 3)),
    .assign (.var n!"_") (.index (.var n!"out") (.num 3)),
    .assign (.index (.var n!"out") (.num 0)) (.bin .add (.call (.var n!"decodeOne") [(.var n!"in"), (.var n!"len0")]) (.var n!"prev")),
    .assign (.index (.var n!"out") (.num 1)) (.bin .add (.call (.var n!"decodeOne") [(.from (.var n!"in") (.var n!"len0")), (.var n!"len1")]) (.index (.var n!"out") (.num 0))),
    .assign (.index (.var n!"out") (.num 2)) (.bin .add (.call (.var n!"decodeOne") [(.from (.var n!"in") (.bin .add (.var n!"len0") (.var n!"len1"))), (.var n!"len2")]) (.index (.var n!"out") (.num 1))),
    .assign (.index (.var n!"out") (.num 3)) (.bin .add (.call (.var n!"decodeOne") [(.from (.var n!"in") (.bin .add (.bin .add (.var n!"len0") (.var n!"len1")) (.var n!"len2"))), (.var n!"len3")]) (.index (.var n!"out") (.num 2)))]

/-- `decodeOne` -/
def dec_decodeOne : Func where
  name := n!"decodeOne"
  params := [(n!"b", (.slice (.named n!"byte"))), (n!"size", (.named n!"uint8"))]
  results := [(0, (.named n!"uint32"))]
  body := some [
    .switch (.var n!"size") [
      ((.num 4), [
      .ret [(.bin .or (.bin .or (.bin .or (.bin .shl (.call (.var n!"uint32") [(.index (.var n!"b") (.num 3))]) (.num 24)) (.bin .shl (.call (.var n!"uint32") [(.index (.var n!"b") (.num 2))]) (.num 16))) (.bin .shl (.call (.var n!"uint32") [(.index (.var n!"b") (.num 1))]) (.num 8))) (.call (.var n!"uint32") [(.index (.var n!"b") (.num 0))]))]], false),
      ((.num 3), [
      .ret [(.bin .or (.bin .or (.bin .shl (.call (.var n!"uint32") [(.index (.var n!"b") (.num 2))]) (.num 16)) (.bin .shl (.call (.var n!"uint32") [(.index (.var n!"b") (.num 1))]) (.num 8))) (.call (.var n!"uint32") [(.index (.var n!"b") (.num 0))]))]], false),
      ((.num 2), [
      .ret [(.bin .or (.bin .shl (.call (.var n!"uint32") [(.index (.var n!"b") (.num 1))]) (.num 8)) (.call (.var n!"uint32") [(.index (.var n!"b") (.num 0))]))]], false),
      ((.num 1), [
      .ret [(.call (.var n!"uint32") [(.index (.var n!"b") (.num 0))])]], false)],
    .expr (.call (.var n!"panic") [(.str [105, 109, 112, 111, 115, 115, 105, 98, 108, 101])])]

/-- `/repo/pkg/decode/decode.go` -/
def dec : File where
  pkg := n!"decode"
  imports := [n!"github.com/theMPatel/streamvbyte-simdgo/pkg/shared"]
  types := [(n!"Get8Impl", .fn [(n!"in", (.slice (.named n!"byte"))), (n!"out", (.slice (.named n!"uint32"))), (n!"ctrl", (.named n!"uint16"))] []), (n!"Get8DeltaImpl", .fn [(n!"in", (.slice (.named n!"byte"))), (n!"out", (.slice (.named n!"uint32"))), (n!"ctrl", (.named n!"uint16")), (n!"prev", (.named n!"uint32"))] [])]
  consts := []
  vars := [(n!"getImpl", (.named n!"Get8Impl")), (n!"getDeltaImpl", (.named n!"Get8DeltaImpl"))]
  funcs := [dec_init, dec_Get8uint32, dec_Get8uint32Delta, dec_Get8uint32Scalar, dec_Get4uint32Scalar, dec_GetUint32Scalar, dec_GetUint32DeltaScalar, dec_Get8uint32DeltaScalar, dec_Get4uint32DeltaScalar, dec_decodeOne]

/-! ## `/repo/pkg/decode/decode_amd64.go` -/

/-- `GetMode` -/
def decAmd64_GetMode : Func where
  name := n!"GetMode"
  params := []
  results := [(0, (.qual n!"shared" n!"PerformanceMode"))]
  body := some [
    .ite (.dot (.dot (.var n!"cpu") n!"X86") n!"HasAVX") [
      .ret [(.dot (.var n!"shared") n!"Fast")]] [],
    .ret [(.dot (.var n!"shared") n!"Normal")]]

/-- `Get8uint32Fast` -/
def decAmd64_Get8uint32Fast : Func where
  name := n!"Get8uint32Fast"
  params := [(n!"in", (.slice (.named n!"byte"))), (n!"out", (.slice (.named n!"uint32"))), (n!"ctrl", (.named n!"uint16"))]
  results := []
  body := some [
    .expr (.call (.var n!"Get8uint32FastAsm") [(.var n!"in"), (.var n!"out"), (.var n!"ctrl"), (.dot (.var n!"shared") n!"DecodeShuffleTable"), (.dot (.var n!"shared") n!"PerControlLenTable")])]

/-- `Get8uint32DeltaFast` -/
def decAmd64_Get8uint32DeltaFast : Func where
  name := n!"Get8uint32DeltaFast"
  params := [(n!"in", (.slice (.named n!"byte"))), (n!"out", (.slice (.named n!"uint32"))), (n!"ctrl", (.named n!"uint16")), (n!"prev", (.named n!"uint32"))]
  results := []
  body := some [
    .expr (.call (.var n!"Get8uint32DeltaFastAsm") [(.var n!"in"), (.var n!"out"), (.var n!"ctrl"), (.var n!"prev"), (.dot (.var n!"shared") n!"DecodeShuffleTable"), (.dot (.var n!"shared") n!"PerControlLenTable")])]

/-- `Get8uint32FastAsm` -/
def decAmd64_Get8uint32FastAsm : Func where
  name := n!"Get8uint32FastAsm"
  params := [(n!"in", (.slice (.named n!"byte"))), (n!"out", (.slice (.named n!"uint32"))), (n!"ctrl", (.named n!"uint16")), (n!"shuffle", (.ptr (.array 256 (.array 16 (.named n!"uint8"))))), (n!"lenTable", (.ptr (.array 256 (.named n!"uint8"))))]
  results := []
  body := none

/-- `Get8uint32DeltaFastAsm` -/
def decAmd64_Get8uint32DeltaFastAsm : Func where
  name := n!"Get8uint32DeltaFastAsm"
  params := [(n!"in", (.slice (.named n!"byte"))), (n!"out", (.slice (.named n!"uint32"))), (n!"ctrl", (.named n!"uint16")), (n!"prev", (.named n!"uint32")), (n!"shuffle", (.ptr (.array 256 (.array 16 (.named n!"uint8"))))), (n!"lenTable", (.ptr (.array 256 (.named n!"uint8"))))]
  results := []
  body := none

/-- `/repo/pkg/decode/decode_amd64.go` -/
def decAmd64 : File where
  pkg := n!"decode"
  imports := [n!"github.com/theMPatel/streamvbyte-simdgo/pkg/shared", n!"golang.org/x/sys/cpu"]
  types := []
  consts := []
  vars := []
  funcs := [decAmd64_GetMode, decAmd64_Get8uint32Fast, decAmd64_Get8uint32DeltaFast, decAmd64_Get8uint32FastAsm, decAmd64_Get8uint32DeltaFastAsm]

/-! ## `/repo/pkg/decode/decode_base.go` -/

/-- `GetMode` -/
def decBase_GetMode : Func where
  name := n!"GetMode"
  params := []
  results := [(0, (.qual n!"shared" n!"PerformanceMode"))]
  body := some [
    .ret [(.dot (.var n!"shared") n!"Normal")]]

/-- `Get8uint32Fast` -/
def decBase_Get8uint32Fast : Func where
  name := n!"Get8uint32Fast"
  params := [(n!"in", (.slice (.named n!"byte"))), (n!"out", (.slice (.named n!"uint32"))), (n!"ctrl", (.named n!"uint16"))]
  results := [(0, (.named n!"int"))]
  body := some [
    .expr (.call (.var n!"panic") [(.str [117, 110, 114, 101, 97, 99, 104, 97, 98, 108, 101])])]

/-- `Get8uint32DeltaFast` -/
def decBase_Get8uint32DeltaFast : Func where
  name := n!"Get8uint32DeltaFast"
  params := [(n!"in", (.slice (.named n!"byte"))), (n!"out", (.slice (.named n!"uint32"))), (n!"ctrl", (.named n!"uint16")), (n!"prev", (.named n!"uint32"))]
  results := [(0, (.named n!"int"))]
  body := some [
    .expr (.call (.var n!"panic") [(.str [117, 110, 114, 101, 97, 99, 104, 97, 98, 108, 101])])]

/-- `/repo/pkg/decode/decode_base.go` -/
def decBase : File where
  pkg := n!"decode"
  imports := [n!"github.com/theMPatel/streamvbyte-simdgo/pkg/shared"]
  types := []
  consts := []
  vars := []
  funcs := [decBase_GetMode, decBase_Get8uint32Fast, decBase_Get8uint32DeltaFast]

/-! ## `/repo/pkg/stream/writer/writer.go` -/

/-- `WriteAll` -/
def wr_WriteAll : Func where
  name := n!"WriteAll"
  params := [(n!"in", (.slice (.named n!"uint32")))]
  results := [(0, (.slice (.named n!"byte")))]
  body := some [
    .ite (.bin .eq (.call (.dot (.var n!"encode") n!"GetMode") []) (.dot (.var n!"shared") n!"Fast")) [
      .ret [(.call (.var n!"WriteAllFast") [(.var n!"in")])]] [
      .ret [(.call (.var n!"WriteAllScalar") [(.var n!"in")])]]]

/-- `WriteAllDelta` -/
def wr_WriteAllDelta : Func where
  name := n!"WriteAllDelta"
  params := [(n!"in", (.slice (.named n!"uint32"))), (n!"prev", (.named n!"uint32"))]
  results := [(0, (.slice (.named n!"byte")))]
  body := some [
    .ite (.bin .eq (.call (.dot (.var n!"encode") n!"GetMode") []) (.dot (.var n!"shared") n!"Fast")) [
      .ret [(.call (.var n!"WriteAllDeltaFast") [(.var n!"in"), (.var n!"prev")])]] [
      .ret [(.call (.var n!"WriteAllDeltaScalar") [(.var n!"in"), (.var n!"prev")])]]]

/-- `WriteAllScalar` -/
def wr_WriteAllScalar : Func where
  name := n!"WriteAllScalar"
  params := [(n!"in", (.slice (.named n!"uint32")))]
  results := [(0, (.slice (.named n!"byte")))]
  body := some [
    .var n!"count" none (some (.call (.var n!"len") [(.var n!"in")])),
    .var n!"ctrlLen" none (some (.bin .div (.bin .add (.var n!"count") (.num 3)) (.num 4))),
    .var n!"stream" none (some (.call (.var n!"make") [(.type (.slice (.named n!"byte"))), (.bin .add (.var n!"ctrlLen") (.bin .mul (.dot (.var n!"encode") n!"MaxBytesPerNum") (.var n!"count")))])),
    .var n!"dataPos" none (some (.var n!"ctrlLen")),
    .var n!"ctrlPos" none (some (.num 0)),
    .var n!"encoded" none (some (.num 0)),
    .var n!"lowestJump" none (some (.bin .andNot (.var n!"count") (.bin .sub (.var n!"jump") (.num 1)))),
    .var n!"lowest4" none (some (.bin .andNot (.var n!"count") (.num 3))),
    .loop [] (.bin .lt (.var n!"encoded") (.var n!"lowestJump")) [
      .update .add (.var n!"encoded") (.var n!"jump")] [
      .define [n!"nums"] (.range (.var n!"in") (.var n!"encoded") (.bin .add (.var n!"encoded") (.var n!"jump"))),
      .define [n!"data"] (.from (.var n!"stream") (.var n!"dataPos")),
      .define [n!"ctrls"] (.range (.var n!"stream") (.var n!"ctrlPos") (.bin .add (.var n!"ctrlPos") (.var n!"jumpCtrl"))),
      .define [n!"ctrl"] (.call (.dot (.var n!"encode") n!"Put4uint32Scalar") [(.var n!"nums"), (.var n!"data")]),
      .assign (.index (.var n!"ctrls") (.num 0)) (.var n!"ctrl"),
      .define [n!"sizeA"] (.call (.dot (.var n!"shared") n!"ControlByteToSize") [(.var n!"ctrl")]),
      .assign (.var n!"ctrl") (.call (.dot (.var n!"encode") n!"Put4uint32Scalar") [(.from (.var n!"nums") (.num 4)), (.from (.var n!"data") (.var n!"sizeA"))]),
      .assign (.index (.var n!"ctrls") (.num 1)) (.var n!"ctrl"),
      .define [n!"sizeB"] (.call (.dot (.var n!"shared") n!"ControlByteToSize") [(.var n!"ctrl")]),
      .assign (.var n!"ctrl") (.call (.dot (.var n!"encode") n!"Put4uint32Scalar") [(.from (.var n!"nums") (.num 8)), (.from (.var n!"data") (.bin .add (.var n!"sizeA") (.var n!"sizeB")))]),
      .assign (.index (.var n!"ctrls") (.num 2)) (.var n!"ctrl"),
      .define [n!"sizeC"] (.call (.dot (.var n!"shared") n!"ControlByteToSize") [(.var n!"ctrl")]),
      .assign (.var n!"ctrl") (.call (.dot (.var n!"encode") n!"Put4uint32Scalar") [(.from (.var n!"nums") (.num 12)), (.from (.var n!"data") (.bin .add (.bin .add (.var n!"sizeA") (.var n!"sizeB")) (.var n!"sizeC")))]),
      .assign (.index (.var n!"ctrls") (.num 3)) (.var n!"ctrl"),
      .define [n!"sizeD"] (.call (.dot (.var n!"shared") n!"ControlByteToSize") [(.var n!"ctrl")]),
      .update .add (.var n!"dataPos") (.bin .add (.bin .add (.bin .add (.var n!"sizeA") (.var n!"sizeB")) (.var n!"sizeC")) (.var n!"sizeD")),
      .update .add (.var n!"ctrlPos") (.var n!"jumpCtrl")],
    .loop [] (.bin .lt (.var n!"encoded") (.var n!"lowest4")) [
      .update .add (.var n!"encoded") (.num 4)] [
      .define [n!"ctrl"] (.call (.dot (.var n!"encode") n!"Put4uint32Scalar") [(.from (.var n!"in") (.var n!"encoded")), (.from (.var n!"stream") (.var n!"dataPos"))]),
      .assign (.index (.var n!"stream") (.var n!"ctrlPos")) (.var n!"ctrl"),
      .define [n!"size"] (.call (.dot (.var n!"shared") n!"ControlByteToSize") [(.var n!"ctrl")]),
      .update .add (.var n!"dataPos") (.var n!"size"),
      .update .add (.var n!"ctrlPos") (.num 1)],
    .ite (.bin .ne (.var n!"lowest4") (.var n!"count")) [
      .define [n!"nums"] (.bin .sub (.var n!"count") (.var n!"lowest4")),
      .define [n!"ctrl"] (.call (.dot (.var n!"encode") n!"PutUint32Scalar") [(.from (.var n!"in") (.var n!"encoded")), (.from (.var n!"stream") (.var n!"dataPos")), (.var n!"nums")]),
      .define [n!"size"] (.call (.dot (.var n!"shared") n!"ControlByteToSize") [(.var n!"ctrl")]),
      .update .sub (.var n!"size") (.bin .sub (.num 4) (.var n!"nums")),
      .update .add (.var n!"dataPos") (.var n!"size"),
      .assign (.index (.var n!"stream") (.var n!"ctrlPos")) (.var n!"ctrl")] [],
    .ret [(.upto (.var n!"stream") (.var n!"dataPos"))]]

/-- `WriteAllDeltaScalar` -/
def wr_WriteAllDeltaScalar : Func where
  name := n!"WriteAllDeltaScalar"
  params := [(n!"in", (.slice (.named n!"uint32"))), (n!"prev", (.named n!"uint32"))]
  results := [(0, (.slice (.named n!"byte")))]
  body := some [
    .var n!"count" none (some (.call (.var n!"len") [(.var n!"in")])),
    .var n!"ctrlLen" none (some (.bin .div (.bin .add (.var n!"count") (.num 3)) (.num 4))),
    .var n!"stream" none (some (.call (.var n!"make") [(.type (.slice (.named n!"byte"))), (.bin .add (.var n!"ctrlLen") (.bin .mul (.dot (.var n!"encode") n!"MaxBytesPerNum") (.var n!"count")))])),
    .var n!"dataPos" none (some (.var n!"ctrlLen")),
    .var n!"ctrlPos" none (some (.num 0)),
    .var n!"encoded" none (some (.num 0)),
    .var n!"lowestJump" none (some (.bin .andNot (.var n!"count") (.bin .sub (.var n!"jump") (.num 1)))),
    .var n!"lowest4" none (some (.bin .andNot (.var n!"count") (.num 3))),
    .loop [] (.bin .lt (.var n!"encoded") (.var n!"lowestJump")) [
      .update .add (.var n!"encoded") (.var n!"jump")] [
      .define [n!"nums"] (.range (.var n!"in") (.var n!"encoded") (.bin .add (.var n!"encoded") (.var n!"jump"))),
      .define [n!"data"] (.from (.var n!"stream") (.var n!"dataPos")),
      .define [n!"ctrls"] (.range (.var n!"stream") (.var n!"ctrlPos") (.bin .add (.var n!"ctrlPos") (.var n!"jumpCtrl"))),
      .define [n!"ctrl"] (.call (.dot (.var n!"encode") n!"Put4uint32DeltaScalar") [(.var n!"nums"), (.var n!"data"), (.var n!"prev")]),
      .assign (.index (.var n!"ctrls") (.num 0)) (.var n!"ctrl"),
      .define [n!"sizeA"] (.call (.dot (.var n!"shared") n!"ControlByteToSize") [(.var n!"ctrl")]),
      .assign (.var n!"ctrl") (.call (.dot (.var n!"encode") n!"Put4uint32DeltaScalar") [(.from (.var n!"nums") (.num 4)), (.from (.var n!"data") (.var n!"sizeA")), (.index (.var n!"nums") (.num 3))]),
      .assign (.index (.var n!"ctrls") (.num 1)) (.var n!"ctrl"),
      .define [n!"sizeB"] (.call (.dot (.var n!"shared") n!"ControlByteToSize") [(.var n!"ctrl")]),
      .assign (.var n!"ctrl") (.call (.dot (.var n!"encode") n!"Put4uint32DeltaScalar") [(.from (.var n!"nums") (.num 8)), (.from (.var n!"data") (.bin .add (.var n!"sizeA") (.var n!"sizeB"))), (.index (.var n!"nums") (.num 7))]),
      .assign (.index (.var n!"ctrls") (.num 2)) (.var n!"ctrl"),
      .define [n!"sizeC"] (.call (.dot (.var n!"shared") n!"ControlByteToSize") [(.var n!"ctrl")]),
      .assign (.var n!"ctrl") (.call (.dot (.var n!"encode") n!"Put4uint32DeltaScalar") [(.from (.var n!"nums") (.num 12)), (.from (.var n!"data") (.bin .add (.bin .add (.var n!"sizeA") (.var n!"sizeB")) (.var n!"sizeC"))), (.index (.var n!"nums") (.num 11))]),
      .assign (.index (.var n!"ctrls") (.num 3)) (.var n!"ctrl"),
      .define [n!"sizeD"] (.call (.dot (.var n!"shared") n!"ControlByteToSize") [(.var n!"ctrl")]),
      .update .add (.var n!"dataPos") (.bin .add (.bin .add (.bin .add (.var n!"sizeA") (.var n!"sizeB")) (.var n!"sizeC")) (.var n!"sizeD")),
      .update .add (.var n!"ctrlPos") (.var n!"jumpCtrl"),
      .assign (.var n!"prev") (.index (.var n!"nums") (.num 15))],
    .loop [] (.bin .lt (.var n!"encoded") (.var n!"lowest4")) [
      .update .add (.var n!"encoded") (.num 4)] [
      .define [n!"ctrl"] (.call (.dot (.var n!"encode") n!"Put4uint32DeltaScalar") [(.from (.var n!"in") (.var n!"encoded")), (.from (.var n!"stream") (.var n!"dataPos")), (.var n!"prev")]),
      .assign (.index (.var n!"stream") (.var n!"ctrlPos")) (.var n!"ctrl"),
      .define [n!"size"] (.call (.dot (.var n!"shared") n!"ControlByteToSize") [(.var n!"ctrl")]),
      .update .add (.var n!"dataPos") (.var n!"size"),
      .update .add (.var n!"ctrlPos") (.num 1),
      .assign (.var n!"prev") (.index (.var n!"in") (.bin .add (.var n!"encoded") (.num 3)))],
    .ite (.bin .ne (.var n!"lowest4") (.var n!"count")) [
      .define [n!"nums"] (.bin .sub (.var n!"count") (.var n!"lowest4")),
      .define [n!"ctrl"] (.call (.dot (.var n!"encode") n!"PutUint32DeltaScalar") [(.from (.var n!"in") (.var n!"encoded")), (.from (.var n!"stream") (.var n!"dataPos")), (.var n!"nums"), (.var n!"prev")]),
      .define [n!"size"] (.call (.dot (.var n!"shared") n!"ControlByteToSize") [(.var n!"ctrl")]),
      .update .sub (.var n!"size") (.bin .sub (.num 4) (.var n!"nums")),
      .update .add (.var n!"dataPos") (.var n!"size"),
      .assign (.index (.var n!"stream") (.var n!"ctrlPos")) (.var n!"ctrl")] [],
    .ret [(.upto (.var n!"stream") (.var n!"dataPos"))]]

/-- `/repo/pkg/stream/writer/writer.go` -/
def wr : File where
  pkg := n!"writer"
  imports := [n!"github.com/theMPatel/streamvbyte-simdgo/pkg/encode", n!"github.com/theMPatel/streamvbyte-simdgo/pkg/shared"]
  types := []
  consts := [(n!"jump", none, (.num 16), 0), (n!"jumpCtrl", none, (.bin .div (.var n!"jump") (.num 4)), 1)]
  vars := []
  funcs := [wr_WriteAll, wr_WriteAllDelta, wr_WriteAllScalar, wr_WriteAllDeltaScalar]

/-! ## `/repo/pkg/stream/writer/writer_amd64.go` -/

/-- `WriteAllFast` -/
def wrAmd64_WriteAllFast : Func where
  name := n!"WriteAllFast"
  params := [(n!"in", (.slice (.named n!"uint32")))]
  results := [(0, (.slice (.named n!"byte")))]
  body := some [
    .var n!"count" none (some (.call (.var n!"len") [(.var n!"in")])),
    .var n!"ctrlLen" none (some (.bin .div (.bin .add (.var n!"count") (.num 3)) (.num 4))),
    .var n!"stream" none (some (.call (.var n!"make") [(.type (.slice (.named n!"byte"))), (.bin .add (.var n!"ctrlLen") (.bin .mul (.dot (.var n!"encode") n!"MaxBytesPerNum") (.var n!"count")))])),
    .var n!"dataPos" none (some (.var n!"ctrlLen")),
    .var n!"ctrlPos" none (some (.num 0)),
    .var n!"encoded" none (some (.num 0)),
    .var n!"lowest32" none (some (.bin .andNot (.bin .mul (.bin .sub (.var n!"ctrlLen") (.num 3)) (.num 4)) (.num 31))),
    .loop [] (.bin .lt (.var n!"encoded") (.var n!"lowest32")) [
      .update .add (.var n!"encoded") (.num 32)] [
      .define [n!"ctrls"] (.range (.var n!"stream") (.var n!"ctrlPos") (.bin .add (.var n!"ctrlPos") (.num 8))),
      .define [n!"nums"] (.range (.var n!"in") (.var n!"encoded") (.bin .add (.var n!"encoded") (.num 32))),
      .define [n!"out"] (.from (.var n!"stream") (.var n!"dataPos")),
      .define [n!"ctrl"] (.call (.dot (.var n!"encode") n!"Put8uint32FastAsm") [(.range (.var n!"nums") (.num 0) (.num 8)), (.var n!"out"), (.dot (.var n!"shared") n!"EncodeShuffleTable"), (.dot (.var n!"shared") n!"PerControlLenTable")]),
      .assign (.index (.var n!"ctrls") (.num 0)) (.call (.var n!"uint8") [(.bin .and (.var n!"ctrl") (.num 255))]),
      .assign (.index (.var n!"ctrls") (.num 1)) (.call (.var n!"uint8") [(.bin .shr (.var n!"ctrl") (.num 8))]),
      .define [n!"sizeA"] (.call (.dot (.var n!"shared") n!"ControlByteToSizeTwo") [(.var n!"ctrl")]),
      .assign (.var n!"ctrl") (.call (.dot (.var n!"encode") n!"Put8uint32FastAsm") [(.range (.var n!"nums") (.num 8) (.num 16)), (.from (.var n!"out") (.var n!"sizeA")), (.dot (.var n!"shared") n!"EncodeShuffleTable"), (.dot (.var n!"shared") n!"PerControlLenTable")]),
      .assign (.index (.var n!"ctrls") (.num 2)) (.call (.var n!"uint8") [(.bin .and (.var n!"ctrl") (.num 255))]),
      .assign (.index (.var n!"ctrls") (.num 3)) (.call (.var n!"uint8") [(.bin .shr (.var n!"ctrl") (.num 8))]),
      .define [n!"sizeB"] (.call (.dot (.var n!"shared") n!"ControlByteToSizeTwo") [(.var n!"ctrl")]),
      .assign (.var n!"ctrl") (.call (.dot (.var n!"encode") n!"Put8uint32FastAsm") [(.range (.var n!"nums") (.num 16) (.num 24)), (.from (.var n!"out") (.bin .add (.var n!"sizeA") (.var n!"sizeB"))), (.dot (.var n!"shared") n!"EncodeShuffleTable"), (.dot (.var n!"shared") n!"PerControlLenTable")]),
      .assign (.index (.var n!"ctrls") (.num 4)) (.call (.var n!"uint8") [(.bin .and (.var n!"ctrl") (.num 255))]),
      .assign (.index (.var n!"ctrls") (.num 5)) (.call (.var n!"uint8") [(.bin .shr (.var n!"ctrl") (.num 8))]),
      .define [n!"sizeC"] (.call (.dot (.var n!"shared") n!"ControlByteToSizeTwo") [(.var n!"ctrl")]),
      .assign (.var n!"ctrl") (.call (.dot (.var n!"encode") n!"Put8uint32FastAsm") [(.from (.var n!"nums") (.num 24)), (.from (.var n!"out") (.bin .add (.bin .add (.var n!"sizeA") (.var n!"sizeB")) (.var n!"sizeC"))), (.dot (.var n!"shared") n!"EncodeShuffleTable"), (.dot (.var n!"shared") n!"PerControlLenTable")]),
      .assign (.index (.var n!"ctrls") (.num 6)) (.call (.var n!"uint8") [(.bin .and (.var n!"ctrl") (.num 255))]),
      .assign (.index (.var n!"ctrls") (.num 7)) (.call (.var n!"uint8") [(.bin .shr (.var n!"ctrl") (.num 8))]),
      .define [n!"sizeD"] (.call (.dot (.var n!"shared") n!"ControlByteToSizeTwo") [(.var n!"ctrl")]),
      .update .add (.var n!"ctrlPos") (.num 8),
      .update .add (.var n!"dataPos") (.bin .add (.bin .add (.bin .add (.var n!"sizeA") (.var n!"sizeB")) (.var n!"sizeC")) (.var n!"sizeD"))],
    .loop [] (.bin .lt (.var n!"ctrlPos") (.bin .sub (.var n!"ctrlLen") (.num 2))) [
      .update .add (.var n!"ctrlPos") (.num 2)] [
      .define [n!"ctrl"] (.call (.dot (.var n!"encode") n!"Put8uint32FastAsm") [(.from (.var n!"in") (.var n!"encoded")), (.from (.var n!"stream") (.var n!"dataPos")), (.dot (.var n!"shared") n!"EncodeShuffleTable"), (.dot (.var n!"shared") n!"PerControlLenTable")]),
      .assign (.index (.var n!"stream") (.var n!"ctrlPos")) (.call (.var n!"uint8") [(.bin .and (.var n!"ctrl") (.num 255))]),
      .assign (.index (.var n!"stream") (.bin .add (.var n!"ctrlPos") (.num 1))) (.call (.var n!"uint8") [(.bin .shr (.var n!"ctrl") (.num 8))]),
      .update .add (.var n!"encoded") (.num 8),
      .update .add (.var n!"dataPos") (.call (.dot (.var n!"shared") n!"ControlByteToSizeTwo") [(.var n!"ctrl")])],
    .loop [] (.bin .lt (.var n!"ctrlPos") (.var n!"ctrlLen")) [
      .update .add (.var n!"ctrlPos") (.num 1)] [
      .define [n!"nums"] (.bin .sub (.var n!"count") (.var n!"encoded")),
      .ite (.bin .gt (.var n!"nums") (.num 4)) [
        .assign (.var n!"nums") (.num 4)] [],
      .define [n!"ctrl"] (.call (.dot (.var n!"encode") n!"PutUint32Scalar") [(.from (.var n!"in") (.var n!"encoded")), (.from (.var n!"stream") (.var n!"dataPos")), (.var n!"nums")]),
      .define [n!"size"] (.call (.dot (.var n!"shared") n!"ControlByteToSize") [(.var n!"ctrl")]),
      .assign (.index (.var n!"stream") (.var n!"ctrlPos")) (.var n!"ctrl"),
      .update .sub (.var n!"size") (.bin .sub (.num 4) (.var n!"nums")),
      .update .add (.var n!"dataPos") (.var n!"size"),
      .update .add (.var n!"encoded") (.var n!"nums")],
    .ret [(.upto (.var n!"stream") (.var n!"dataPos"))]]

/-- `WriteAllDeltaFast` -/
def wrAmd64_WriteAllDeltaFast : Func where
  name := n!"WriteAllDeltaFast"
  params := [(n!"in", (.slice (.named n!"uint32"))), (n!"prev", (.named n!"uint32"))]
  results := [(0, (.slice (.named n!"byte")))]
  body := some [
    .var n!"count" none (some (.call (.var n!"len") [(.var n!"in")])),
    .var n!"ctrlLen" none (some (.bin .div (.bin .add (.var n!"count") (.num 3)) (.num 4))),
    .var n!"stream" none (some (.call (.var n!"make") [(.type (.slice (.named n!"byte"))), (.bin .add (.var n!"ctrlLen") (.bin .mul (.dot (.var n!"encode") n!"MaxBytesPerNum") (.var n!"count")))])),
    .var n!"dataPos" none (some (.var n!"ctrlLen")),
    .var n!"ctrlPos" none (some (.num 0)),
    .var n!"encoded" none (some (.num 0)),
    .var n!"lowest32" none (some (.bin .andNot (.bin .mul (.bin .sub (.var n!"ctrlLen") (.num 3)) (.num 4)) (.num 31))),
    .loop [] (.bin .lt (.var n!"encoded") (.var n!"lowest32")) [
      .update .add (.var n!"encoded") (.num 32)] [
      .define [n!"ctrls"] (.range (.var n!"stream") (.var n!"ctrlPos") (.bin .add (.var n!"ctrlPos") (.num 8))),
      .define [n!"nums"] (.range (.var n!"in") (.var n!"encoded") (.bin .add (.var n!"encoded") (.num 32))),
      .define [n!"out"] (.from (.var n!"stream") (.var n!"dataPos")),
      .define [n!"ctrl"] (.call (.dot (.var n!"encode") n!"Put8uint32DeltaFastAsm") [(.range (.var n!"nums") (.num 0) (.num 8)), (.var n!"out"), (.var n!"prev"), (.dot (.var n!"shared") n!"EncodeShuffleTable"), (.dot (.var n!"shared") n!"PerControlLenTable")]),
      .assign (.index (.var n!"ctrls") (.num 0)) (.call (.var n!"uint8") [(.bin .and (.var n!"ctrl") (.num 255))]),
      .assign (.index (.var n!"ctrls") (.num 1)) (.call (.var n!"uint8") [(.bin .shr (.var n!"ctrl") (.num 8))]),
      .define [n!"sizeA"] (.call (.dot (.var n!"shared") n!"ControlByteToSizeTwo") [(.var n!"ctrl")]),
      .assign (.var n!"ctrl") (.call (.dot (.var n!"encode") n!"Put8uint32DeltaFastAsm") [(.range (.var n!"nums") (.num 8) (.num 16)), (.from (.var n!"out") (.var n!"sizeA")), (.index (.var n!"nums") (.num 7)), (.dot (.var n!"shared") n!"EncodeShuffleTable"), (.dot (.var n!"shared") n!"PerControlLenTable")]),
      .assign (.index (.var n!"ctrls") (.num 2)) (.call (.var n!"uint8") [(.bin .and (.var n!"ctrl") (.num 255))]),
      .assign (.index (.var n!"ctrls") (.num 3)) (.call (.var n!"uint8") [(.bin .shr (.var n!"ctrl") (.num 8))]),
      .define [n!"sizeB"] (.call (.dot (.var n!"shared") n!"ControlByteToSizeTwo") [(.var n!"ctrl")]),
      .assign (.var n!"ctrl") (.call (.dot (.var n!"encode") n!"Put8uint32DeltaFastAsm") [(.range (.var n!"nums") (.num 16) (.num 24)), (.from (.var n!"out") (.bin .add (.var n!"sizeA") (.var n!"sizeB"))), (.index (.var n!"nums") (.num 15)), (.dot (.var n!"shared") n!"EncodeShuffleTable"), (.dot (.var n!"shared") n!"PerControlLenTable")]),
      .assign (.index (.var n!"ctrls") (.num 4)) (.call (.var n!"uint8") [(.bin .and (.var n!"ctrl") (.num 255))]),
      .assign (.index (.var n!"ctrls") (.num 5)) (.call (.var n!"uint8") [(.bin .shr (.var n!"ctrl") (.num 8))]),
      .define [n!"sizeC"] (.call (.dot (.var n!"shared") n!"ControlByteToSizeTwo") [(.var n!"ctrl")]),
      .assign (.var n!"ctrl") (.call (.dot (.var n!"encode") n!"Put8uint32DeltaFastAsm") [(.from (.var n!"nums") (.num 24)), (.from (.var n!"out") (.bin .add (.bin .add (.var n!"sizeA") (.var n!"sizeB")) (.var n!"sizeC"))), (.index (.var n!"nums") (.num 23)), (.dot (.var n!"shared") n!"EncodeShuffleTable"), (.dot (.var n!"shared") n!"PerControlLenTable")]),
      .assign (.index (.var n!"ctrls") (.num 6)) (.call (.var n!"uint8") [(.bin .and (.var n!"ctrl") (.num 255))]),
      .assign (.index (.var n!"ctrls") (.num 7)) (.call (.var n!"uint8") [(.bin .shr (.var n!"ctrl") (.num 8))]),
      .define [n!"sizeD"] (.call (.dot (.var n!"shared") n!"ControlByteToSizeTwo") [(.var n!"ctrl")]),
      .update .add (.var n!"ctrlPos") (.num 8),
      .update .add (.var n!"dataPos") (.bin .add (.bin .add (.bin .add (.var n!"sizeA") (.var n!"sizeB")) (.var n!"sizeC")) (.var n!"sizeD")),
      .assign (.var n!"prev") (.index (.var n!"nums") (.num 31))],
    .loop [] (.bin .lt (.var n!"ctrlPos") (.bin .sub (.var n!"ctrlLen") (.num 2))) [
      .update .add (.var n!"ctrlPos") (.num 2)] [
      .define [n!"ctrl"] (.call (.dot (.var n!"encode") n!"Put8uint32DeltaFastAsm") [(.from (.var n!"in") (.var n!"encoded")), (.from (.var n!"stream") (.var n!"dataPos")), (.var n!"prev"), (.dot (.var n!"shared") n!"EncodeShuffleTable"), (.dot (.var n!"shared") n!"PerControlLenTable")]),
      .assign (.index (.var n!"stream") (.var n!"ctrlPos")) (.call (.var n!"uint8") [(.bin .and (.var n!"ctrl") (.num 255))]),
      .assign (.index (.var n!"stream") (.bin .add (.var n!"ctrlPos") (.num 1))) (.call (.var n!"uint8") [(.bin .shr (.var n!"ctrl") (.num 8))]),
      .update .add (.var n!"encoded") (.num 8),
      .update .add (.var n!"dataPos") (.call (.dot (.var n!"shared") n!"ControlByteToSizeTwo") [(.var n!"ctrl")]),
      .assign (.var n!"prev") (.index (.var n!"in") (.bin .sub (.var n!"encoded") (.num 1)))],
    .loop [] (.bin .lt (.var n!"ctrlPos") (.var n!"ctrlLen")) [
      .update .add (.var n!"ctrlPos") (.num 1)] [
      .define [n!"nums"] (.bin .sub (.var n!"count") (.var n!"encoded")),
      .ite (.bin .gt (.var n!"nums") (.num 4)) [
        .assign (.var n!"nums") (.num 4)] [],
      .define [n!"ctrl"] (.call (.dot (.var n!"encode") n!"PutUint32DeltaScalar") [(.from (.var n!"in") (.var n!"encoded")), (.from (.var n!"stream") (.var n!"dataPos")), (.var n!"nums"), (.var n!"prev")]),
      .define [n!"size"] (.call (.dot (.var n!"shared") n!"ControlByteToSize") [(.var n!"ctrl")]),
      .assign (.index (.var n!"stream") (.var n!"ctrlPos")) (.var n!"ctrl"),
      .update .sub (.var n!"size") (.bin .sub (.num 4) (.var n!"nums")),
      .update .add (.var n!"dataPos") (.var n!"size"),
      .update .add (.var n!"encoded") (.var n!"nums"),
      .assign (.var n!"prev") (.index (.var n!"in") (.bin .sub (.var n!"encoded") (.num 1)))],
    .ret [(.upto (.var n!"stream") (.var n!"dataPos"))]]

/-- `/repo/pkg/stream/writer/writer_amd64.go` -/
def wrAmd64 : File where
  pkg := n!"writer"
  imports := [n!"github.com/theMPatel/streamvbyte-simdgo/pkg/encode", n!"github.com/theMPatel/streamvbyte-simdgo/pkg/shared"]
  types := []
  consts := []
  vars := []
  funcs := [wrAmd64_WriteAllFast, wrAmd64_WriteAllDeltaFast]

/-! ## `/repo/pkg/stream/writer/writer_base.go` -/

/-- `WriteAllFast` -/
def wrBase_WriteAllFast : Func where
  name := n!"WriteAllFast"
  params := [(n!"in", (.slice (.named n!"uint32")))]
  results := [(0, (.slice (.named n!"byte")))]
  body := some [
    .expr (.call (.var n!"panic") [(.str [117, 110, 114, 101, 97, 99, 104, 97, 98, 108, 101])])]

/-- `/repo/pkg/stream/writer/writer_base.go` -/
def wrBase : File where
  pkg := n!"writer"
  imports := []
  types := []
  consts := []
  vars := []
  funcs := [wrBase_WriteAllFast]

/-! ## `/repo/pkg/stream/reader/reader.go` -/

/-- `ReadAll` -/
def rd_ReadAll : Func where
  name := n!"ReadAll"
  params := [(n!"count", (.named n!"int")), (n!"stream", (.slice (.named n!"byte"))), (n!"out", (.slice (.named n!"uint32")))]
  results := []
  body := some [
    .ite (.bin .eq (.call (.dot (.var n!"decode") n!"GetMode") []) (.dot (.var n!"shared") n!"Fast")) [
      .expr (.call (.var n!"ReadAllFast") [(.var n!"count"), (.var n!"stream"), (.var n!"out")])] [
      .expr (.call (.var n!"ReadAllScalar") [(.var n!"count"), (.var n!"stream"), (.var n!"out")])]]

/-- `ReadAllDelta` -/
def rd_ReadAllDelta : Func where
  name := n!"ReadAllDelta"
  params := [(n!"count", (.named n!"int")), (n!"stream", (.slice (.named n!"byte"))), (n!"out", (.slice (.named n!"uint32"))), (n!"prev", (.named n!"uint32"))]
  results := []
  body := some [
    .ite (.bin .eq (.call (.dot (.var n!"decode") n!"GetMode") []) (.dot (.var n!"shared") n!"Fast")) [
      .expr (.call (.var n!"ReadAllDeltaFast") [(.var n!"count"), (.var n!"stream"), (.var n!"out"), (.var n!"prev")])] [
      .expr (.call (.var n!"ReadAllDeltaScalar") [(.var n!"count"), (.var n!"stream"), (.var n!"out"), (.var n!"prev")])]]

/-- `ReadAllScalar` -/
def rd_ReadAllScalar : Func where
  name := n!"ReadAllScalar"
  params := [(n!"count", (.named n!"int")), (n!"stream", (.slice (.named n!"byte"))), (n!"out", (.slice (.named n!"uint32")))]
  results := []
  body := some [
    .var n!"ctrlLen" none (some (.bin .div (.bin .add (.var n!"count") (.num 3)) (.num 4))),
    .var n!"dataPos" none (some (.var n!"ctrlLen")),
    .var n!"ctrlPos" none (some (.num 0)),
    .var n!"decoded" none (some (.num 0)),
    .var n!"lowestJump" none (some (.bin .andNot (.var n!"count") (.bin .sub (.var n!"jump") (.num 1)))),
    .var n!"lowest4" none (some (.bin .andNot (.var n!"count") (.num 3))),
    .loop [] (.bin .lt (.var n!"decoded") (.var n!"lowestJump")) [
      .update .add (.var n!"decoded") (.var n!"jump")] [
      .define [n!"data"] (.from (.var n!"stream") (.var n!"dataPos")),
      .define [n!"ctrls"] (.range (.var n!"stream") (.var n!"ctrlPos") (.bin .add (.var n!"ctrlPos") (.var n!"jumpCtrl"))),
      .define [n!"nums"] (.range (.var n!"out") (.var n!"decoded") (.bin .add (.var n!"decoded") (.var n!"jump"))),
      .define [n!"ctrl"] (.index (.var n!"ctrls") (.num 0)),
      .expr (.call (.dot (.var n!"decode") n!"Get4uint32Scalar") [(.var n!"data"), (.var n!"nums"), (.var n!"ctrl")]),
      .define [n!"sizeA"] (.call (.dot (.var n!"shared") n!"ControlByteToSize") [(.var n!"ctrl")]),
      .assign (.var n!"ctrl") (.index (.var n!"ctrls") (.num 1)),
      .expr (.call (.dot (.var n!"decode") n!"Get4uint32Scalar") [(.from (.var n!"data") (.var n!"sizeA")), (.from (.var n!"nums") (.num 4)), (.var n!"ctrl")]),
      .define [n!"sizeB"] (.call (.dot (.var n!"shared") n!"ControlByteToSize") [(.var n!"ctrl")]),
      .assign (.var n!"ctrl") (.index (.var n!"ctrls") (.num 2)),
      .expr (.call (.dot (.var n!"decode") n!"Get4uint32Scalar") [(.from (.var n!"data") (.bin .add (.var n!"sizeA") (.var n!"sizeB"))), (.from (.var n!"nums") (.num 8)), (.var n!"ctrl")]),
      .define [n!"sizeC"] (.call (.dot (.var n!"shared") n!"ControlByteToSize") [(.var n!"ctrl")]),
      .assign (.var n!"ctrl") (.index (.var n!"ctrls") (.num 3)),
      .expr (.call (.dot (.var n!"decode") n!"Get4uint32Scalar") [(.from (.var n!"data") (.bin .add (.bin .add (.var n!"sizeA") (.var n!"sizeB")) (.var n!"sizeC"))), (.from (.var n!"nums") (.num 12)), (.var n!"ctrl")]),
      .define [n!"sizeD"] (.call (.dot (.var n!"shared") n!"ControlByteToSize") [(.var n!"ctrl")]),
      .update .add (.var n!"dataPos") (.bin .add (.bin .add (.bin .add (.var n!"sizeA") (.var n!"sizeB")) (.var n!"sizeC")) (.var n!"sizeD")),
      .update .add (.var n!"ctrlPos") (.var n!"jumpCtrl")],
    .loop [] (.bin .lt (.var n!"decoded") (.var n!"lowest4")) [
      .update .add (.var n!"decoded") (.num 4)] [
      .define [n!"ctrl"] (.index (.var n!"stream") (.var n!"ctrlPos")),
      .expr (.call (.dot (.var n!"decode") n!"Get4uint32Scalar") [(.from (.var n!"stream") (.var n!"dataPos")), (.from (.var n!"out") (.var n!"decoded")), (.var n!"ctrl")]),
      .define [n!"size"] (.call (.dot (.var n!"shared") n!"ControlByteToSize") [(.var n!"ctrl")]),
      .update .add (.var n!"dataPos") (.var n!"size"),
      .update .add (.var n!"ctrlPos") (.num 1)],
    .ite (.bin .ne (.var n!"lowest4") (.var n!"count")) [
      .expr (.call (.dot (.var n!"decode") n!"GetUint32Scalar") [(.from (.var n!"stream") (.var n!"dataPos")), (.from (.var n!"out") (.var n!"decoded")), (.index (.var n!"stream") (.var n!"ctrlPos")), (.bin .sub (.var n!"count") (.var n!"lowest4"))])] []]

/-- `ReadAllDeltaScalar` -/
def rd_ReadAllDeltaScalar : Func where
  name := n!"ReadAllDeltaScalar"
  params := [(n!"count", (.named n!"int")), (n!"stream", (.slice (.named n!"byte"))), (n!"out", (.slice (.named n!"uint32"))), (n!"prev", (.named n!"uint32"))]
  results := []
  body := some [
    .var n!"ctrlLen" none (some (.bin .div (.bin .add (.var n!"count") (.num 3)) (.num 4))),
    .var n!"dataPos" none (some (.var n!"ctrlLen")),
    .var n!"ctrlPos" none (some (.num 0)),
    .var n!"decoded" none (some (.num 0)),
    .var n!"lowestJump" none (some (.bin .andNot (.var n!"count") (.bin .sub (.var n!"jump") (.num 1)))),
    .var n!"lowest4" none (some (.bin .andNot (.var n!"count") (.num 3))),
    .loop [] (.bin .lt (.var n!"decoded") (.var n!"lowestJump")) [
      .update .add (.var n!"decoded") (.var n!"jump")] [
      .define [n!"data"] (.from (.var n!"stream") (.var n!"dataPos")),
      .define [n!"ctrls"] (.range (.var n!"stream") (.var n!"ctrlPos") (.bin .add (.var n!"ctrlPos") (.var n!"jumpCtrl"))),
      .define [n!"nums"] (.range (.var n!"out") (.var n!"decoded") (.bin .add (.var n!"decoded") (.var n!"jump"))),
      .define [n!"ctrl"] (.index (.var n!"ctrls") (.num 0)),
      .expr (.call (.dot (.var n!"decode") n!"Get4uint32DeltaScalar") [(.var n!"data"), (.var n!"nums"), (.var n!"ctrl"), (.var n!"prev")]),
      .define [n!"sizeA"] (.call (.dot (.var n!"shared") n!"ControlByteToSize") [(.var n!"ctrl")]),
      .assign (.var n!"ctrl") (.index (.var n!"ctrls") (.num 1)),
      .expr (.call (.dot (.var n!"decode") n!"Get4uint32DeltaScalar") [(.from (.var n!"data") (.var n!"sizeA")), (.from (.var n!"nums") (.num 4)), (.var n!"ctrl"), (.index (.var n!"nums") (.num 3))]),
      .define [n!"sizeB"] (.call (.dot (.var n!"shared") n!"ControlByteToSize") [(.var n!"ctrl")]),
      .assign (.var n!"ctrl") (.index (.var n!"ctrls") (.num 2)),
      .expr (.call (.dot (.var n!"decode") n!"Get4uint32DeltaScalar") [(.from (.var n!"data") (.bin .add (.var n!"sizeA") (.var n!"sizeB"))), (.from (.var n!"nums") (.num 8)), (.var n!"ctrl"), (.index (.var n!"nums") (.num 7))]),
      .define [n!"sizeC"] (.call (.dot (.var n!"shared") n!"ControlByteToSize") [(.var n!"ctrl")]),
      .assign (.var n!"ctrl") (.index (.var n!"ctrls") (.num 3)),
      .expr (.call (.dot (.var n!"decode") n!"Get4uint32DeltaScalar") [(.from (.var n!"data") (.bin .add (.bin .add (.var n!"sizeA") (.var n!"sizeB")) (.var n!"sizeC"))), (.from (.var n!"nums") (.num 12)), (.var n!"ctrl"), (.index (.var n!"nums") (.num 11))]),
      .define [n!"sizeD"] (.call (.dot (.var n!"shared") n!"ControlByteToSize") [(.var n!"ctrl")]),
      .update .add (.var n!"dataPos") (.bin .add (.bin .add (.bin .add (.var n!"sizeA") (.var n!"sizeB")) (.var n!"sizeC")) (.var n!"sizeD")),
      .update .add (.var n!"ctrlPos") (.var n!"jumpCtrl"),
      .assign (.var n!"prev") (.index (.var n!"nums") (.num 15))],
    .loop [] (.bin .lt (.var n!"decoded") (.var n!"lowest4")) [
      .update .add (.var n!"decoded") (.num 4)] [
      .define [n!"ctrl"] (.index (.var n!"stream") (.var n!"ctrlPos")),
      .expr (.call (.dot (.var n!"decode") n!"Get4uint32DeltaScalar") [(.from (.var n!"stream") (.var n!"dataPos")), (.from (.var n!"out") (.var n!"decoded")), (.var n!"ctrl"), (.var n!"prev")]),
      .define [n!"size"] (.call (.dot (.var n!"shared") n!"ControlByteToSize") [(.var n!"ctrl")]),
      .update .add (.var n!"dataPos") (.var n!"size"),
      .update .add (.var n!"ctrlPos") (.num 1),
      .assign (.var n!"prev") (.index (.var n!"out") (.bin .add (.var n!"decoded") (.num 3)))],
    .ite (.bin .ne (.var n!"lowest4") (.var n!"count")) [
      .expr (.call (.dot (.var n!"decode") n!"GetUint32DeltaScalar") [(.from (.var n!"stream") (.var n!"dataPos")), (.from (.var n!"out") (.var n!"decoded")), (.index (.var n!"stream") (.var n!"ctrlPos")), (.bin .sub (.var n!"count") (.var n!"lowest4")), (.var n!"prev")])] []]

/-- `/repo/pkg/stream/reader/reader.go` -/
def rd : File where
  pkg := n!"reader"
  imports := [n!"github.com/theMPatel/streamvbyte-simdgo/pkg/decode", n!"github.com/theMPatel/streamvbyte-simdgo/pkg/shared"]
  types := []
  consts := [(n!"jump", none, (.num 16), 0), (n!"jumpCtrl", none, (.bin .div (.var n!"jump") (.num 4)), 1)]
  vars := []
  funcs := [rd_ReadAll, rd_ReadAllDelta, rd_ReadAllScalar, rd_ReadAllDeltaScalar]

/-! ## `/repo/pkg/stream/reader/reader_amd64.go` -/

/-- `ReadAllFast` -/
def rdAmd64_ReadAllFast : Func where
  name := n!"ReadAllFast"
  params := [(n!"count", (.named n!"int")), (n!"stream", (.slice (.named n!"byte"))), (n!"out", (.slice (.named n!"uint32")))]
  results := []
  body := some [
    .var n!"ctrlPos" none (some (.num 0)),
    .var n!"decoded" none (some (.num 0)),
    .var n!"dataPos" none (some (.bin .div (.bin .add (.var n!"count") (.num 3)) (.num 4))),
    .var n!"ctrlLen" none (some (.var n!"dataPos")),
    .var n!"lowest32" none (some (.bin .andNot (.bin .mul (.bin .sub (.var n!"ctrlLen") (.num 3)) (.num 4)) (.num 31))),
    .loop [] (.bin .lt (.var n!"decoded") (.var n!"lowest32")) [
      .update .add (.var n!"decoded") (.num 32)] [
      .define [n!"data"] (.from (.var n!"stream") (.var n!"dataPos")),
      .define [n!"ctrls"] (.range (.var n!"stream") (.var n!"ctrlPos") (.bin .add (.var n!"ctrlPos") (.num 8))),
      .define [n!"nums"] (.range (.var n!"out") (.var n!"decoded") (.bin .add (.var n!"decoded") (.num 32))),
      .define [n!"ctrl"] (.bin .or (.call (.var n!"uint16") [(.index (.var n!"ctrls") (.num 0))]) (.bin .shl (.call (.var n!"uint16") [(.index (.var n!"ctrls") (.num 1))]) (.num 8))),
      .expr (.call (.dot (.var n!"decode") n!"Get8uint32FastAsm") [(.var n!"data"), (.var n!"nums"), (.var n!"ctrl"), (.dot (.var n!"shared") n!"DecodeShuffleTable"), (.dot (.var n!"shared") n!"PerControlLenTable")]),
      .define [n!"sizeA"] (.bin .add (.call (.dot (.var n!"shared") n!"ControlByteToSize") [(.index (.var n!"ctrls") (.num 0))]) (.call (.dot (.var n!"shared") n!"ControlByteToSize") [(.index (.var n!"ctrls") (.num 1))])),
      .assign (.var n!"ctrl") (.bin .or (.call (.var n!"uint16") [(.index (.var n!"ctrls") (.num 2))]) (.bin .shl (.call (.var n!"uint16") [(.index (.var n!"ctrls") (.num 3))]) (.num 8))),
      .expr (.call (.dot (.var n!"decode") n!"Get8uint32FastAsm") [(.from (.var n!"data") (.var n!"sizeA")), (.from (.var n!"nums") (.num 8)), (.var n!"ctrl"), (.dot (.var n!"shared") n!"DecodeShuffleTable"), (.dot (.var n!"shared") n!"PerControlLenTable")]),
      .define [n!"sizeB"] (.bin .add (.call (.dot (.var n!"shared") n!"ControlByteToSize") [(.index (.var n!"ctrls") (.num 2))]) (.call (.dot (.var n!"shared") n!"ControlByteToSize") [(.index (.var n!"ctrls") (.num 3))])),
      .assign (.var n!"ctrl") (.bin .or (.call (.var n!"uint16") [(.index (.var n!"ctrls") (.num 4))]) (.bin .shl (.call (.var n!"uint16") [(.index (.var n!"ctrls") (.num 5))]) (.num 8))),
      .expr (.call (.dot (.var n!"decode") n!"Get8uint32FastAsm") [(.from (.var n!"data") (.bin .add (.var n!"sizeA") (.var n!"sizeB"))), (.from (.var n!"nums") (.num 16)), (.var n!"ctrl"), (.dot (.var n!"shared") n!"DecodeShuffleTable"), (.dot (.var n!"shared") n!"PerControlLenTable")]),
      .define [n!"sizeC"] (.bin .add (.call (.dot (.var n!"shared") n!"ControlByteToSize") [(.index (.var n!"ctrls") (.num 4))]) (.call (.dot (.var n!"shared") n!"ControlByteToSize") [(.index (.var n!"ctrls") (.num 5))])),
      .assign (.var n!"ctrl") (.bin .or (.call (.var n!"uint16") [(.index (.var n!"ctrls") (.num 6))]) (.bin .shl (.call (.var n!"uint16") [(.index (.var n!"ctrls") (.num 7))]) (.num 8))),
      .expr (.call (.dot (.var n!"decode") n!"Get8uint32FastAsm") [(.from (.var n!"data") (.bin .add (.bin .add (.var n!"sizeA") (.var n!"sizeB")) (.var n!"sizeC"))), (.from (.var n!"nums") (.num 24)), (.var n!"ctrl"), (.dot (.var n!"shared") n!"DecodeShuffleTable"), (.dot (.var n!"shared") n!"PerControlLenTable")]),
      .define [n!"sizeD"] (.bin .add (.call (.dot (.var n!"shared") n!"ControlByteToSize") [(.index (.var n!"ctrls") (.num 6))]) (.call (.dot (.var n!"shared") n!"ControlByteToSize") [(.index (.var n!"ctrls") (.num 7))])),
      .update .add (.var n!"dataPos") (.bin .add (.bin .add (.bin .add (.var n!"sizeA") (.var n!"sizeB")) (.var n!"sizeC")) (.var n!"sizeD")),
      .update .add (.var n!"ctrlPos") (.num 8)],
    .loop [] (.bin .lt (.var n!"ctrlPos") (.bin .sub (.var n!"ctrlLen") (.num 4))) [
      .update .add (.var n!"ctrlPos") (.num 2)] [
      .define [n!"ctrl"] (.bin .or (.call (.var n!"uint16") [(.index (.var n!"stream") (.var n!"ctrlPos"))]) (.bin .shl (.call (.var n!"uint16") [(.index (.var n!"stream") (.bin .add (.var n!"ctrlPos") (.num 1)))]) (.num 8))),
      .expr (.call (.dot (.var n!"decode") n!"Get8uint32FastAsm") [(.from (.var n!"stream") (.var n!"dataPos")), (.from (.var n!"out") (.var n!"decoded")), (.var n!"ctrl"), (.dot (.var n!"shared") n!"DecodeShuffleTable"), (.dot (.var n!"shared") n!"PerControlLenTable")]),
      .update .add (.var n!"dataPos") (.bin .add (.call (.dot (.var n!"shared") n!"ControlByteToSize") [(.index (.var n!"stream") (.var n!"ctrlPos"))]) (.call (.dot (.var n!"shared") n!"ControlByteToSize") [(.index (.var n!"stream") (.bin .add (.var n!"ctrlPos") (.num 1)))])),
      .update .add (.var n!"decoded") (.num 8)],
    .loop [] (.bin .lt (.var n!"ctrlPos") (.var n!"ctrlLen")) [
      .update .add (.var n!"ctrlPos") (.num 1)] [
      .define [n!"nums"] (.bin .sub (.var n!"count") (.var n!"decoded")),
      .ite (.bin .gt (.var n!"nums") (.num 4)) [
        .assign (.var n!"nums") (.num 4)] [],
      .update .add (.var n!"dataPos") (.call (.dot (.var n!"decode") n!"GetUint32Scalar") [(.from (.var n!"stream") (.var n!"dataPos")), (.from (.var n!"out") (.var n!"decoded")), (.index (.var n!"stream") (.var n!"ctrlPos")), (.var n!"nums")]),
      .update .add (.var n!"decoded") (.var n!"nums")]]

/-- `ReadAllDeltaFast` -/
def rdAmd64_ReadAllDeltaFast : Func where
  name := n!"ReadAllDeltaFast"
  params := [(n!"count", (.named n!"int")), (n!"stream", (.slice (.named n!"byte"))), (n!"out", (.slice (.named n!"uint32"))), (n!"prev", (.named n!"uint32"))]
  results := []
  body := some [
    .var n!"ctrlPos" none (some (.num 0)),
    .var n!"decoded" none (some (.num 0)),
    .var n!"dataPos" none (some (.bin .div (.bin .add (.var n!"count") (.num 3)) (.num 4))),
    .var n!"ctrlLen" none (some (.var n!"dataPos")),
    .var n!"lowest32" none (some (.bin .andNot (.bin .mul (.bin .sub (.var n!"ctrlLen") (.num 3)) (.num 4)) (.num 31))),
    .loop [] (.bin .lt (.var n!"decoded") (.var n!"lowest32")) [
      .update .add (.var n!"decoded") (.num 32)] [
      .define [n!"data"] (.from (.var n!"stream") (.var n!"dataPos")),
      .define [n!"ctrls"] (.range (.var n!"stream") (.var n!"ctrlPos") (.bin .add (.var n!"ctrlPos") (.num 8))),
      .define [n!"nums"] (.range (.var n!"out") (.var n!"decoded") (.bin .add (.var n!"decoded") (.num 32))),
      .define [n!"ctrl"] (.bin .or (.call (.var n!"uint16") [(.index (.var n!"ctrls") (.num 0))]) (.bin .shl (.call (.var n!"uint16") [(.index (.var n!"ctrls") (.num 1))]) (.num 8))),
      .expr (.call (.dot (.var n!"decode") n!"Get8uint32DeltaFastAsm") [(.var n!"data"), (.var n!"nums"), (.var n!"ctrl"), (.var n!"prev"), (.dot (.var n!"shared") n!"DecodeShuffleTable"), (.dot (.var n!"shared") n!"PerControlLenTable")]),
      .define [n!"sizeA"] (.bin .add (.call (.dot (.var n!"shared") n!"ControlByteToSize") [(.index (.var n!"ctrls") (.num 0))]) (.call (.dot (.var n!"shared") n!"ControlByteToSize") [(.index (.var n!"ctrls") (.num 1))])),
      .assign (.var n!"ctrl") (.bin .or (.call (.var n!"uint16") [(.index (.var n!"ctrls") (.num 2))]) (.bin .shl (.call (.var n!"uint16") [(.index (.var n!"ctrls") (.num 3))]) (.num 8))),
      .expr (.call (.dot (.var n!"decode") n!"Get8uint32DeltaFastAsm") [(.from (.var n!"data") (.var n!"sizeA")), (.from (.var n!"nums") (.num 8)), (.var n!"ctrl"), (.index (.var n!"nums") (.num 7)), (.dot (.var n!"shared") n!"DecodeShuffleTable"), (.dot (.var n!"shared") n!"PerControlLenTable")]),
      .define [n!"sizeB"] (.bin .add (.call (.dot (.var n!"shared") n!"ControlByteToSize") [(.index (.var n!"ctrls") (.num 2))]) (.call (.dot (.var n!"shared") n!"ControlByteToSize") [(.index (.var n!"ctrls") (.num 3))])),
      .assign (.var n!"ctrl") (.bin .or (.call (.var n!"uint16") [(.index (.var n!"ctrls") (.num 4))]) (.bin .shl (.call (.var n!"uint16") [(.index (.var n!"ctrls") (.num 5))]) (.num 8))),
      .expr (.call (.dot (.var n!"decode") n!"Get8uint32DeltaFastAsm") [(.from (.var n!"data") (.bin .add (.var n!"sizeA") (.var n!"sizeB"))), (.from (.var n!"nums") (.num 16)), (.var n!"ctrl"), (.index (.var n!"nums") (.num 15)), (.dot (.var n!"shared") n!"DecodeShuffleTable"), (.dot (.var n!"shared") n!"PerControlLenTable")]),
      .define [n!"sizeC"] (.bin .add (.call (.dot (.var n!"shared") n!"ControlByteToSize") [(.index (.var n!"ctrls") (.num 4))]) (.call (.dot (.var n!"shared") n!"ControlByteToSize") [(.index (.var n!"ctrls") (.num 5))])),
      .assign (.var n!"ctrl") (.bin .or (.call (.var n!"uint16") [(.index (.var n!"ctrls") (.num 6))]) (.bin .shl (.call (.var n!"uint16") [(.index (.var n!"ctrls") (.num 7))]) (.num 8))),
      .expr (.call (.dot (.var n!"decode") n!"Get8uint32DeltaFastAsm") [(.from (.var n!"data") (.bin .add (.bin .add (.var n!"sizeA") (.var n!"sizeB")) (.var n!"sizeC"))), (.from (.var n!"nums") (.num 24)), (.var n!"ctrl"), (.index (.var n!"nums") (.num 23)), (.dot (.var n!"shared") n!"DecodeShuffleTable"), (.dot (.var n!"shared") n!"PerControlLenTable")]),
      .define [n!"sizeD"] (.bin .add (.call (.dot (.var n!"shared") n!"ControlByteToSize") [(.index (.var n!"ctrls") (.num 6))]) (.call (.dot (.var n!"shared") n!"ControlByteToSize") [(.index (.var n!"ctrls") (.num 7))])),
      .update .add (.var n!"dataPos") (.bin .add (.bin .add (.bin .add (.var n!"sizeA") (.var n!"sizeB")) (.var n!"sizeC")) (.var n!"sizeD")),
      .update .add (.var n!"ctrlPos") (.num 8),
      .assign (.var n!"prev") (.index (.var n!"nums") (.num 31))],
    .loop [] (.bin .lt (.var n!"ctrlPos") (.bin .sub (.var n!"ctrlLen") (.num 4))) [
      .update .add (.var n!"ctrlPos") (.num 2)] [
      .define [n!"ctrl"] (.bin .or (.call (.var n!"uint16") [(.index (.var n!"stream") (.var n!"ctrlPos"))]) (.bin .shl (.call (.var n!"uint16") [(.index (.var n!"stream") (.bin .add (.var n!"ctrlPos") (.num 1)))]) (.num 8))),
      .expr (.call (.dot (.var n!"decode") n!"Get8uint32DeltaFastAsm") [(.from (.var n!"stream") (.var n!"dataPos")), (.from (.var n!"out") (.var n!"decoded")), (.var n!"ctrl"), (.var n!"prev"), (.dot (.var n!"shared") n!"DecodeShuffleTable"), (.dot (.var n!"shared") n!"PerControlLenTable")]),
      .update .add (.var n!"dataPos") (.bin .add (.call (.dot (.var n!"shared") n!"ControlByteToSize") [(.index (.var n!"stream") (.var n!"ctrlPos"))]) (.call (.dot (.var n!"shared") n!"ControlByteToSize") [(.index (.var n!"stream") (.bin .add (.var n!"ctrlPos") (.num 1)))])),
      .update .add (.var n!"decoded") (.num 8),
      .assign (.var n!"prev") (.index (.var n!"out") (.bin .sub (.var n!"decoded") (.num 1)))],
    .loop [] (.bin .lt (.var n!"ctrlPos") (.var n!"ctrlLen")) [
      .update .add (.var n!"ctrlPos") (.num 1)] [
      .define [n!"nums"] (.bin .sub (.var n!"count") (.var n!"decoded")),
      .ite (.bin .gt (.var n!"nums") (.num 4)) [
        .assign (.var n!"nums") (.num 4)] [],
      .update .add (.var n!"dataPos") (.call (.dot (.var n!"decode") n!"GetUint32DeltaScalar") [(.from (.var n!"stream") (.var n!"dataPos")), (.from (.var n!"out") (.var n!"decoded")), (.index (.var n!"stream") (.var n!"ctrlPos")), (.var n!"nums"), (.var n!"prev")]),
      .update .add (.var n!"decoded") (.var n!"nums"),
      .assign (.var n!"prev") (.index (.var n!"out") (.bin .sub (.var n!"decoded") (.num 1)))]]

/-- `/repo/pkg/stream/reader/reader_amd64.go` -/
def rdAmd64 : File where
  pkg := n!"reader"
  imports := [n!"github.com/theMPatel/streamvbyte-simdgo/pkg/decode", n!"github.com/theMPatel/streamvbyte-simdgo/pkg/shared"]
  types := []
  consts := []
  vars := []
  funcs := [rdAmd64_ReadAllFast, rdAmd64_ReadAllDeltaFast]

/-! ## `/repo/pkg/stream/reader/reader_base.go` -/

/-- `ReadAllFast` -/
def rdBase_ReadAllFast : Func where
  name := n!"ReadAllFast"
  params := [(n!"count", (.named n!"int")), (n!"stream", (.slice (.named n!"byte"))), (n!"out", (.slice (.named n!"uint32")))]
  results := []
  body := some [
    .expr (.call (.var n!"panic") [(.str [117, 110, 114, 101, 97, 99, 104, 97, 98, 108, 101])])]

/-- `/repo/pkg/stream/reader/reader_base.go` -/
def rdBase : File where
  pkg := n!"reader"
  imports := []
  types := []
  consts := []
  vars := []
  funcs := [rdBase_ReadAllFast]

/-! ## `/repo/pkg/util/varint.go` -/

/-- `PutVarint` -/
def vint_PutVarint : Func where
  name := n!"PutVarint"
  params := [(n!"nums", (.slice (.named n!"uint32"))), (n!"out", (.slice (.named n!"byte")))]
  results := [(0, (.named n!"int"))]
  body := some [
    .define [n!"pos"] (.num 0),
    .range n!"i" (.var n!"nums") [
      .define [n!"size"] (.call (.dot (.var n!"binary") n!"PutUvarint") [(.from (.var n!"out") (.var n!"pos")), (.call (.var n!"uint64") [(.index (.var n!"nums") (.var n!"i"))])]),
      .update .add (.var n!"pos") (.var n!"size")],
    .ret [(.var n!"pos")]]

/-- `GetVarint` -/
def vint_GetVarint : Func where
  name := n!"GetVarint"
  params := [(n!"data", (.slice (.named n!"byte"))), (n!"out", (.slice (.named n!"uint32")))]
  results := [(0, (.named n!"int"))]
  body := some [
    .define [n!"pos"] (.num 0),
    .define [n!"i"] (.num 0),
    .loop [] (.bin .lt (.var n!"pos") (.call (.var n!"len") [(.var n!"data")])) [] [
      .define [n!"num", n!"read"] (.call (.dot (.var n!"binary") n!"Uvarint") [(.from (.var n!"data") (.var n!"pos"))]),
      .update .add (.var n!"pos") (.var n!"read"),
      .assign (.index (.var n!"out") (.var n!"i")) (.call (.var n!"uint32") [(.var n!"num")]),
      .update .add (.var n!"i") (.num 1)],
    .ret [(.var n!"pos")]]

/-- `PutDeltaVarint` -/
def vint_PutDeltaVarint : Func where
  name := n!"PutDeltaVarint"
  params := [(n!"nums", (.slice (.named n!"uint32"))), (n!"out", (.slice (.named n!"byte"))), (n!"prev", (.named n!"uint32"))]
  results := [(0, (.named n!"int"))]
  body := some [
    .define [n!"pos"] (.num 0),
    .range n!"i" (.var n!"nums") [
      .define [n!"size"] (.call (.dot (.var n!"binary") n!"PutUvarint") [(.from (.var n!"out") (.var n!"pos")), (.call (.var n!"uint64") [(.bin .sub (.index (.var n!"nums") (.var n!"i")) (.var n!"prev"))])]),
      .update .add (.var n!"pos") (.var n!"size"),
      .assign (.var n!"prev") (.index (.var n!"nums") (.var n!"i"))],
    .ret [(.var n!"pos")]]

/-- `GetDeltaVarint` -/
def vint_GetDeltaVarint : Func where
  name := n!"GetDeltaVarint"
  params := [(n!"in", (.slice (.named n!"byte"))), (n!"out", (.slice (.named n!"uint32"))), (n!"prev", (.named n!"uint32"))]
  results := [(0, (.named n!"int"))]
  body := some [
    .define [n!"pos"] (.num 0),
    .define [n!"i"] (.num 0),
    .loop [] (.bin .lt (.var n!"pos") (.call (.var n!"len") [(.var n!"in")])) [] [
      .define [n!"num", n!"size"] (.call (.dot (.var n!"binary") n!"Uvarint") [(.from (.var n!"in") (.var n!"pos"))]),
      .update .add (.var n!"pos") (.var n!"size"),
      .define [n!"res"] (.bin .add (.call (.var n!"uint32") [(.var n!"num")]) (.var n!"prev")),
      .assign (.index (.var n!"out") (.var n!"i")) (.var n!"res"),
      .assign (.var n!"prev") (.var n!"res"),
      .update .add (.var n!"i") (.num 1)],
    .ret [(.var n!"pos")]]

/-- `/repo/pkg/util/varint.go` -/
def vint : File where
  pkg := n!"util"
  imports := [n!"encoding/binary"]
  types := []
  consts := []
  vars := []
  funcs := [vint_PutVarint, vint_GetVarint, vint_PutDeltaVarint, vint_GetDeltaVarint]

/-! ## `/repo/pkg/util/util.go` -/

/-- `SilentClose` -/
def util_SilentClose : Func where
  name := n!"SilentClose"
  params := [(n!"closer", (.qual n!"io" n!"Closer"))]
  results := []
  body := some [
    .assign (.var n!"_") (.call (.dot (.var n!"closer") n!"Close") [])]

/-- `GenUint32` -/
def util_GenUint32 : Func where
  name := n!"GenUint32"
  params := [(n!"n", (.named n!"int"))]
  results := [(0, (.slice (.named n!"uint32")))]
  body := some [
    .define [n!"nums"] (.call (.var n!"make") [(.type (.slice (.named n!"uint32"))), (.var n!"n")]),
    .loop [
      .define [n!"i"] (.num 0)] (.bin .lt (.var n!"i") (.var n!"n")) [
      .update .add (.var n!"i") (.num 1)] [
      .assign (.index (.var n!"nums") (.var n!"i")) (.call (.var n!"RandUint32") [])],
    .ret [(.var n!"nums")]]

/-- `SortUint32` -/
def util_SortUint32 : Func where
  name := n!"SortUint32"
  params := [(n!"in", (.slice (.named n!"uint32")))]
  results := []
  body := none

/-- `Delta` -/
def util_Delta : Func where
  name := n!"Delta"
  params := [(n!"in", (.slice (.named n!"uint32"))), (n!"out", (.slice (.named n!"uint32")))]
  results := []
  body := some [
    .range n!"i" (.var n!"in") [
      .ite (.bin .gt (.var n!"i") (.num 0)) [
        .assign (.index (.var n!"out") (.var n!"i")) (.bin .sub (.index (.var n!"in") (.var n!"i")) (.index (.var n!"in") (.bin .sub (.var n!"i") (.num 1))))] [
        .assign (.index (.var n!"out") (.var n!"i")) (.index (.var n!"in") (.var n!"i"))]]]

/-- `/repo/pkg/util/util.go` -/
def util : File where
  pkg := n!"util"
  imports := [n!"io", n!"sort"]
  types := []
  consts := []
  vars := []
  funcs := [util_SilentClose, util_GenUint32, util_SortUint32, util_Delta]

end SVB.Go.Files
