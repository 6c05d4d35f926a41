import Verif.Model.ScriptText

/-!
# The tests of `/repo`, parsed

GENERATED by `/verif/scripts/print_tests.txt`.  `Verif.Proofs.TestParse` proves that this is what `Script.parse`
returns for the texts in `TestSources.lean`.
-/

set_option autoImplicit false

namespace SVB.Tests.Files
open SVB.Script

/-! ## `/repo/pkg/pkg_test.go` -/

/-- `init` -/
def pkgTest_init : Func where
  name := n!"init"
  params := []
  results := []
  body := [
    .expr (.call (.dot (.var n!"rand") n!"Seed") [(.call (.dot (.call (.dot (.var n!"time") n!"Now") [] false) n!"UnixNano") [] false)] false)]

/-- `TestRoundTripScalar` -/
def pkgTest_TestRoundTripScalar : Func where
  name := n!"TestRoundTripScalar"
  params := [(n!"t", (.ptr (.qual n!"testing" n!"T")))]
  results := []
  body := [
    .define [n!"in"] (.lit (.slice (.named n!"uint32")) [(0, (.num 1024)), (0, (.num 3)), (0, (.num 2)), (0, (.num 1)), (0, (.num 1073741824)), (0, (.num 10)), (0, (.num 12)), (0, (.num 1024))]),
    .define [n!"expectedData"] (.lit (.slice (.named n!"byte")) [(0, (.num 0)), (0, (.num 4)), (0, (.num 3)), (0, (.num 2)), (0, (.num 1)), (0, (.num 0)), (0, (.num 0)), (0, (.num 0)), (0, (.num 64)), (0, (.num 10)), (0, (.num 12)), (0, (.num 0)), (0, (.num 4))]),
    .define [n!"expectedCtrl"] (.call (.var n!"uint16") [(.num 17153)] false),
    .define [n!"out"] (.call (.var n!"make") [(.type (.slice (.named n!"byte"))), (.num 32)] false),
    .define [n!"actualCtrl"] (.call (.dot (.var n!"encode") n!"Put8uint32Scalar") [(.var n!"in"), (.var n!"out")] false),
    .ite [] (.bin .ne (.var n!"actualCtrl") (.var n!"expectedCtrl")) [
      .expr (.call (.dot (.var n!"t") n!"Fatalf") [(.str [101, 120, 112, 101, 99, 116, 101, 100, 58, 32, 37, 35, 48, 49, 54, 98, 44, 32, 103, 111, 116, 32, 37, 35, 48, 49, 54, 98]), (.var n!"expectedCtrl"), (.var n!"actualCtrl")] false)] [],
    .define [n!"actualData"] (.slice (.var n!"out") none (some (.num 13))),
    .ite [] (.call (.var n!"!") [(.call (.dot (.var n!"reflect") n!"DeepEqual") [(.var n!"expectedData"), (.var n!"actualData")] false)] false) [
      .expr (.call (.dot (.var n!"t") n!"Fatalf") [(.str [101, 120, 112, 101, 99, 116, 101, 100, 32, 37, 43, 118, 44, 32, 103, 111, 116, 32, 37, 43, 118]), (.var n!"expectedData"), (.var n!"actualData")] false)] [],
    .define [n!"decoded"] (.call (.var n!"make") [(.type (.slice (.named n!"uint32"))), (.num 8)] false),
    .expr (.call (.dot (.var n!"decode") n!"Get8uint32Scalar") [(.var n!"actualData"), (.var n!"decoded"), (.var n!"actualCtrl")] false),
    .ite [] (.call (.var n!"!") [(.call (.dot (.var n!"reflect") n!"DeepEqual") [(.var n!"in"), (.var n!"decoded")] false)] false) [
      .expr (.call (.dot (.var n!"t") n!"Fatalf") [(.str [101, 120, 112, 101, 99, 116, 101, 100, 32, 37, 43, 118, 44, 32, 97, 99, 116, 117, 97, 108, 32, 37, 43, 118]), (.var n!"in"), (.var n!"decoded")] false)] []]

/-- `BenchmarkMemCopy8Uint32` -/
def pkgTest_BenchmarkMemCopy8Uint32 : Func where
  name := n!"BenchmarkMemCopy8Uint32"
  params := [(n!"b", (.ptr (.qual n!"testing" n!"B")))]
  results := []
  body := [
    .define [n!"count"] (.num 8),
    .define [n!"nums"] (.call (.var n!"make") [(.type (.slice (.named n!"uint32"))), (.var n!"count")] false),
    .loop [
      .define [n!"i"] (.num 0)] (.bin .lt (.var n!"i") (.var n!"count")) [
      .update .add (.var n!"i") (.num 1)] [
      .assign [(.index (.var n!"nums") (.var n!"i"))] (.call (.dot (.var n!"util") n!"RandUint32") [] false)],
    .define [n!"out"] (.call (.var n!"make") [(.type (.slice (.named n!"uint32"))), (.var n!"count")] false),
    .expr (.call (.dot (.var n!"b") n!"SetBytes") [(.call (.var n!"int64") [(.bin .mul (.var n!"count") (.dot (.var n!"encode") n!"MaxBytesPerNum"))] false)] false),
    .expr (.call (.dot (.var n!"b") n!"ResetTimer") [] false),
    .loop [
      .define [n!"i"] (.num 0)] (.bin .lt (.var n!"i") (.dot (.var n!"b") n!"N")) [
      .update .add (.var n!"i") (.num 1)] [
      .expr (.call (.var n!"copy") [(.var n!"out"), (.var n!"nums")] false)]]

/-- `/repo/pkg/pkg_test.go` -/
def pkgTest : File where
  pkg := n!"pkg"
  imports := [n!"math/rand", n!"reflect", n!"testing", n!"time", n!"github.com/theMPatel/streamvbyte-simdgo/pkg/decode", n!"github.com/theMPatel/streamvbyte-simdgo/pkg/encode", n!"github.com/theMPatel/streamvbyte-simdgo/pkg/util"]
  dots := []
  types := []
  consts := []
  vars := []
  funcs := [pkgTest_init, pkgTest_TestRoundTripScalar, pkgTest_BenchmarkMemCopy8Uint32]

/-! ## `/repo/pkg/encode/encode_test.go` -/

/-- `init` -/
def encTest_init : Func where
  name := n!"init"
  params := []
  results := []
  body := [
    .expr (.call (.dot (.var n!"rand") n!"Seed") [(.call (.dot (.call (.dot (.var n!"time") n!"Now") [] false) n!"UnixNano") [] false)] false)]

/-- `TestPut8uint32Scalar` -/
def encTest_TestPut8uint32Scalar : Func where
  name := n!"TestPut8uint32Scalar"
  params := [(n!"t", (.ptr (.qual n!"testing" n!"T")))]
  results := []
  body := [
    .define [n!"in"] (.lit (.slice (.named n!"uint32")) [(0, (.num 1024)), (0, (.num 3)), (0, (.num 2)), (0, (.num 1)), (0, (.num 1073741824)), (0, (.num 10)), (0, (.num 12)), (0, (.num 1024))]),
    .define [n!"expectedData"] (.lit (.slice (.named n!"byte")) [(0, (.num 0)), (0, (.num 4)), (0, (.num 3)), (0, (.num 2)), (0, (.num 1)), (0, (.num 0)), (0, (.num 0)), (0, (.num 0)), (0, (.num 64)), (0, (.num 10)), (0, (.num 12)), (0, (.num 0)), (0, (.num 4))]),
    .define [n!"expectedCtrl"] (.call (.var n!"uint16") [(.num 17153)] false),
    .define [n!"out"] (.call (.var n!"make") [(.type (.slice (.named n!"byte"))), (.num 32)] false),
    .define [n!"actualCtrl"] (.call (.var n!"Put8uint32Scalar") [(.var n!"in"), (.var n!"out")] false),
    .ite [] (.bin .ne (.var n!"actualCtrl") (.var n!"expectedCtrl")) [
      .expr (.call (.dot (.var n!"t") n!"Fatalf") [(.str [101, 120, 112, 101, 99, 116, 101, 100, 58, 32, 37, 35, 48, 49, 54, 98, 44, 32, 103, 111, 116, 32, 37, 35, 48, 49, 54, 98, 44, 32, 37, 43, 118]), (.var n!"expectedCtrl"), (.var n!"actualCtrl"), (.var n!"in")] false)] [],
    .define [n!"actualData"] (.slice (.var n!"out") none (some (.num 13))),
    .ite [] (.call (.var n!"!") [(.call (.dot (.var n!"reflect") n!"DeepEqual") [(.var n!"expectedData"), (.var n!"actualData")] false)] false) [
      .expr (.call (.dot (.var n!"t") n!"Fatalf") [(.str [101, 120, 112, 101, 99, 116, 101, 100, 32, 37, 43, 118, 44, 32, 103, 111, 116, 32, 37, 43, 118, 44, 32, 37, 43, 118]), (.var n!"expectedData"), (.var n!"actualData"), (.var n!"in")] false)] []]

/-- `TestPut8uint32DeltaScalar` -/
def encTest_TestPut8uint32DeltaScalar : Func where
  name := n!"TestPut8uint32DeltaScalar"
  params := [(n!"t", (.ptr (.qual n!"testing" n!"T")))]
  results := []
  body := [
    .define [n!"count"] (.num 8),
    .define [n!"nums"] (.call (.dot (.var n!"util") n!"GenUint32") [(.var n!"count")] false),
    .expr (.call (.dot (.var n!"util") n!"SortUint32") [(.var n!"nums")] false),
    .define [n!"diffed"] (.call (.var n!"make") [(.type (.slice (.named n!"uint32"))), (.var n!"count")] false),
    .expr (.call (.dot (.var n!"util") n!"Delta") [(.var n!"nums"), (.var n!"diffed")] false),
    .define [n!"expectedData"] (.call (.var n!"make") [(.type (.slice (.named n!"byte"))), (.bin .mul (.var n!"count") (.var n!"MaxBytesPerNum"))] false),
    .define [n!"expectedCtrl"] (.call (.var n!"Put8uint32Scalar") [(.var n!"diffed"), (.var n!"expectedData")] false),
    .assign [(.var n!"expectedData")] (.slice (.var n!"expectedData") none (some (.call (.dot (.var n!"shared") n!"ControlByteToSizeTwo") [(.var n!"expectedCtrl")] false))),
    .define [n!"out"] (.call (.var n!"make") [(.type (.slice (.named n!"byte"))), (.bin .mul (.var n!"count") (.var n!"MaxBytesPerNum"))] false),
    .define [n!"actualCtrl"] (.call (.var n!"Put8uint32DeltaScalar") [(.var n!"nums"), (.var n!"out"), (.num 0)] false),
    .ite [] (.bin .ne (.var n!"actualCtrl") (.var n!"expectedCtrl")) [
      .expr (.call (.dot (.var n!"t") n!"Fatalf") [(.str [101, 120, 112, 101, 99, 116, 101, 100, 58, 32, 37, 35, 48, 49, 54, 98, 44, 32, 103, 111, 116, 32, 37, 35, 48, 49, 54, 98, 44, 32, 37, 43, 118]), (.var n!"expectedCtrl"), (.var n!"actualCtrl"), (.var n!"nums")] false)] [],
    .define [n!"actualData"] (.slice (.var n!"out") none (some (.call (.dot (.var n!"shared") n!"ControlByteToSizeTwo") [(.var n!"actualCtrl")] false))),
    .ite [] (.call (.var n!"!") [(.call (.dot (.var n!"reflect") n!"DeepEqual") [(.var n!"expectedData"), (.var n!"actualData")] false)] false) [
      .expr (.call (.dot (.var n!"t") n!"Fatalf") [(.str [101, 120, 112, 101, 99, 116, 101, 100, 32, 37, 43, 118, 44, 32, 103, 111, 116, 32, 37, 43, 118, 44, 32, 37, 43, 118]), (.var n!"expectedData"), (.var n!"actualData"), (.var n!"nums")] false)] []]

/-- `TestPut8uint32Fast` -/
def encTest_TestPut8uint32Fast : Func where
  name := n!"TestPut8uint32Fast"
  params := [(n!"t", (.ptr (.qual n!"testing" n!"T")))]
  results := []
  body := [
    .ite [] (.bin .eq (.call (.var n!"GetMode") [] false) (.dot (.var n!"shared") n!"Normal")) [
      .expr (.call (.dot (.var n!"t") n!"Skipf") [(.str [84, 101, 115, 116, 105, 110, 103, 32, 101, 110, 118, 105, 114, 111, 110, 109, 101, 110, 116, 32, 100, 111, 101, 115, 110, 39, 116, 32, 115, 117, 112, 112, 111, 114, 116, 32, 116, 104, 105, 115, 32, 116, 101, 115, 116])] false)] [],
    .define [n!"count"] (.num 8),
    .define [n!"nums"] (.call (.dot (.var n!"util") n!"GenUint32") [(.var n!"count")] false),
    .define [n!"out"] (.call (.var n!"make") [(.type (.slice (.named n!"byte"))), (.bin .mul (.var n!"MaxBytesPerNum") (.var n!"count"))] false),
    .define [n!"scalarCtrl"] (.call (.var n!"Put8uint32Scalar") [(.var n!"nums"), (.var n!"out")] false),
    .assign [(.var n!"out")] (.slice (.var n!"out") none (some (.call (.dot (.var n!"shared") n!"ControlByteToSizeTwo") [(.var n!"scalarCtrl")] false))),
    .define [n!"fastOut"] (.call (.var n!"make") [(.type (.slice (.named n!"byte"))), (.bin .mul (.var n!"MaxBytesPerNum") (.var n!"count"))] false),
    .define [n!"fastCtrl"] (.call (.var n!"Put8uint32Fast") [(.var n!"nums"), (.var n!"fastOut")] false),
    .assign [(.var n!"fastOut")] (.slice (.var n!"fastOut") none (some (.call (.dot (.var n!"shared") n!"ControlByteToSizeTwo") [(.var n!"fastCtrl")] false))),
    .ite [] (.bin .ne (.var n!"scalarCtrl") (.var n!"fastCtrl")) [
      .expr (.call (.dot (.var n!"t") n!"Fatalf") [(.str [101, 120, 112, 101, 99, 116, 101, 100, 32, 37, 35, 48, 52, 120, 44, 32, 97, 99, 116, 117, 97, 108, 32, 37, 35, 48, 52, 120, 44, 32, 37, 43, 118]), (.var n!"scalarCtrl"), (.var n!"fastCtrl"), (.var n!"nums")] false)] [],
    .ite [] (.call (.var n!"!") [(.call (.dot (.var n!"reflect") n!"DeepEqual") [(.var n!"out"), (.var n!"fastOut")] false)] false) [
      .expr (.call (.dot (.var n!"t") n!"Fatalf") [(.str [101, 120, 112, 101, 99, 116, 101, 100, 32, 37, 43, 118, 44, 32, 103, 111, 116, 32, 37, 43, 118, 44, 32, 37, 43, 118]), (.var n!"out"), (.var n!"fastOut"), (.var n!"nums")] false)] []]

/-- `TestPut8uint32DeltaFast` -/
def encTest_TestPut8uint32DeltaFast : Func where
  name := n!"TestPut8uint32DeltaFast"
  params := [(n!"t", (.ptr (.qual n!"testing" n!"T")))]
  results := []
  body := [
    .ite [] (.bin .eq (.call (.var n!"GetMode") [] false) (.dot (.var n!"shared") n!"Normal")) [
      .expr (.call (.dot (.var n!"t") n!"Skipf") [(.str [84, 101, 115, 116, 105, 110, 103, 32, 101, 110, 118, 105, 114, 111, 110, 109, 101, 110, 116, 32, 100, 111, 101, 115, 110, 39, 116, 32, 115, 117, 112, 112, 111, 114, 116, 32, 116, 104, 105, 115, 32, 116, 101, 115, 116])] false)] [],
    .define [n!"count"] (.num 8),
    .define [n!"nums"] (.call (.dot (.var n!"util") n!"GenUint32") [(.var n!"count")] false),
    .expr (.call (.dot (.var n!"util") n!"SortUint32") [(.var n!"nums")] false),
    .define [n!"expectedData"] (.call (.var n!"make") [(.type (.slice (.named n!"byte"))), (.bin .mul (.var n!"MaxBytesPerNum") (.var n!"count"))] false),
    .define [n!"scalarCtrl"] (.call (.var n!"Put8uint32DeltaScalar") [(.var n!"nums"), (.var n!"expectedData"), (.num 0)] false),
    .assign [(.var n!"expectedData")] (.slice (.var n!"expectedData") none (some (.call (.dot (.var n!"shared") n!"ControlByteToSizeTwo") [(.var n!"scalarCtrl")] false))),
    .define [n!"fastOut"] (.call (.var n!"make") [(.type (.slice (.named n!"byte"))), (.bin .mul (.var n!"MaxBytesPerNum") (.var n!"count"))] false),
    .define [n!"fastCtrl"] (.call (.var n!"Put8uint32DeltaFast") [(.var n!"nums"), (.var n!"fastOut"), (.num 0)] false),
    .assign [(.var n!"fastOut")] (.slice (.var n!"fastOut") none (some (.call (.dot (.var n!"shared") n!"ControlByteToSizeTwo") [(.var n!"fastCtrl")] false))),
    .ite [] (.bin .ne (.var n!"scalarCtrl") (.var n!"fastCtrl")) [
      .expr (.call (.dot (.var n!"t") n!"Fatalf") [(.str [101, 120, 112, 101, 99, 116, 101, 100, 32, 37, 35, 48, 52, 120, 44, 32, 97, 99, 116, 117, 97, 108, 32, 37, 35, 48, 52, 120, 44, 32, 37, 43, 118]), (.var n!"scalarCtrl"), (.var n!"fastCtrl"), (.var n!"nums")] false)] [],
    .ite [] (.call (.var n!"!") [(.call (.dot (.var n!"reflect") n!"DeepEqual") [(.var n!"expectedData"), (.var n!"fastOut")] false)] false) [
      .expr (.call (.dot (.var n!"t") n!"Fatalf") [(.str [101, 120, 112, 101, 99, 116, 101, 100, 32, 37, 43, 118, 44, 32, 103, 111, 116, 32, 37, 43, 118, 44, 32, 37, 43, 118]), (.var n!"expectedData"), (.var n!"fastOut"), (.var n!"nums")] false)] []]

/-- `TestPutUint32Scalar` -/
def encTest_TestPutUint32Scalar : Func where
  name := n!"TestPutUint32Scalar"
  params := [(n!"t", (.ptr (.qual n!"testing" n!"T")))]
  results := []
  body := [
    .define [n!"count"] (.bin .add (.call (.dot (.var n!"rand") n!"Intn") [(.num 4)] false) (.num 1)),
    .define [n!"nums"] (.call (.dot (.var n!"util") n!"GenUint32") [(.var n!"count")] false),
    .loop [
      .define [n!"i"] (.bin .sub (.num 4) (.var n!"count"))] (.bin .gt (.var n!"i") (.num 0)) [
      .update .sub (.var n!"i") (.num 1)] [
      .assign [(.var n!"nums")] (.call (.var n!"append") [(.var n!"nums"), (.num 0)] false)],
    .define [n!"expected"] (.call (.var n!"make") [(.type (.slice (.named n!"byte"))), (.bin .mul (.num 4) (.var n!"MaxBytesPerNum"))] false),
    .define [n!"ctrl"] (.call (.var n!"Put4uint32Scalar") [(.var n!"nums"), (.var n!"expected")] false),
    .define [n!"size"] (.call (.dot (.var n!"shared") n!"ControlByteToSize") [(.var n!"ctrl")] false),
    .update .sub (.var n!"size") (.bin .sub (.num 4) (.var n!"count")),
    .assign [(.var n!"expected")] (.slice (.var n!"expected") none (some (.var n!"size"))),
    .define [n!"out"] (.call (.var n!"make") [(.type (.slice (.named n!"byte"))), (.bin .mul (.var n!"count") (.var n!"MaxBytesPerNum"))] false),
    .assign [(.var n!"ctrl")] (.call (.var n!"PutUint32Scalar") [(.slice (.var n!"nums") none (some (.var n!"count"))), (.var n!"out"), (.var n!"count")] false),
    .assign [(.var n!"size")] (.call (.dot (.var n!"shared") n!"ControlByteToSize") [(.var n!"ctrl")] false),
    .update .sub (.var n!"size") (.bin .sub (.num 4) (.var n!"count")),
    .assign [(.var n!"out")] (.slice (.var n!"out") none (some (.var n!"size"))),
    .ite [] (.call (.var n!"!") [(.call (.dot (.var n!"reflect") n!"DeepEqual") [(.var n!"expected"), (.var n!"out")] false)] false) [
      .expr (.call (.dot (.var n!"t") n!"Fatalf") [(.str [101, 120, 112, 101, 99, 116, 101, 100, 32, 37, 43, 118, 44, 32, 103, 111, 116, 32, 37, 43, 118]), (.var n!"expected"), (.var n!"out")] false)] []]

/-- `TestPutUint32DeltaScalar` -/
def encTest_TestPutUint32DeltaScalar : Func where
  name := n!"TestPutUint32DeltaScalar"
  params := [(n!"t", (.ptr (.qual n!"testing" n!"T")))]
  results := []
  body := [
    .define [n!"count"] (.bin .add (.call (.dot (.var n!"rand") n!"Intn") [(.num 4)] false) (.num 1)),
    .define [n!"nums"] (.call (.dot (.var n!"util") n!"GenUint32") [(.var n!"count")] false),
    .expr (.call (.dot (.var n!"util") n!"SortUint32") [(.var n!"nums")] false),
    .loop [
      .define [n!"i"] (.bin .sub (.num 4) (.var n!"count"))] (.bin .gt (.var n!"i") (.num 0)) [
      .update .sub (.var n!"i") (.num 1)] [
      .assign [(.var n!"nums")] (.call (.var n!"append") [(.var n!"nums"), (.index (.var n!"nums") (.bin .sub (.var n!"count") (.num 1)))] false)],
    .define [n!"deltas"] (.call (.var n!"make") [(.type (.slice (.named n!"uint32"))), (.num 4)] false),
    .expr (.call (.dot (.var n!"util") n!"Delta") [(.var n!"nums"), (.var n!"deltas")] false),
    .define [n!"expected"] (.call (.var n!"make") [(.type (.slice (.named n!"byte"))), (.bin .mul (.num 4) (.var n!"MaxBytesPerNum"))] false),
    .define [n!"ctrl"] (.call (.var n!"Put4uint32Scalar") [(.var n!"deltas"), (.var n!"expected")] false),
    .define [n!"size"] (.call (.dot (.var n!"shared") n!"ControlByteToSize") [(.var n!"ctrl")] false),
    .update .sub (.var n!"size") (.bin .sub (.num 4) (.var n!"count")),
    .assign [(.var n!"expected")] (.slice (.var n!"expected") none (some (.var n!"size"))),
    .define [n!"out"] (.call (.var n!"make") [(.type (.slice (.named n!"byte"))), (.bin .mul (.var n!"count") (.var n!"MaxBytesPerNum"))] false),
    .assign [(.var n!"ctrl")] (.call (.var n!"PutUint32DeltaScalar") [(.slice (.var n!"nums") none (some (.var n!"count"))), (.var n!"out"), (.var n!"count"), (.num 0)] false),
    .assign [(.var n!"size")] (.call (.dot (.var n!"shared") n!"ControlByteToSize") [(.var n!"ctrl")] false),
    .update .sub (.var n!"size") (.bin .sub (.num 4) (.var n!"count")),
    .assign [(.var n!"out")] (.slice (.var n!"out") none (some (.var n!"size"))),
    .ite [] (.call (.var n!"!") [(.call (.dot (.var n!"reflect") n!"DeepEqual") [(.var n!"expected"), (.var n!"out")] false)] false) [
      .expr (.call (.dot (.var n!"t") n!"Fatalf") [(.str [101, 120, 112, 101, 99, 116, 101, 100, 32, 37, 43, 118, 44, 32, 103, 111, 116, 32, 37, 43, 118]), (.var n!"expected"), (.var n!"out")] false)] []]

/-- `BenchmarkPut8uint32Fast` -/
def encTest_BenchmarkPut8uint32Fast : Func where
  name := n!"BenchmarkPut8uint32Fast"
  params := [(n!"b", (.ptr (.qual n!"testing" n!"B")))]
  results := []
  body := [
    .ite [] (.bin .eq (.call (.var n!"GetMode") [] false) (.dot (.var n!"shared") n!"Normal")) [
      .expr (.call (.dot (.var n!"b") n!"Skipf") [(.str [84, 101, 115, 116, 105, 110, 103, 32, 101, 110, 118, 105, 114, 111, 110, 109, 101, 110, 116, 32, 100, 111, 101, 115, 110, 39, 116, 32, 115, 117, 112, 112, 111, 114, 116, 32, 116, 104, 105, 115, 32, 116, 101, 115, 116])] false)] [],
    .define [n!"count"] (.num 8),
    .define [n!"out"] (.call (.var n!"make") [(.type (.slice (.named n!"byte"))), (.bin .mul (.var n!"count") (.var n!"MaxBytesPerNum"))] false),
    .define [n!"nums"] (.call (.dot (.var n!"util") n!"GenUint32") [(.var n!"count")] false),
    .var n!"ctrl" (some (.named n!"uint16")) none,
    .expr (.call (.dot (.var n!"b") n!"SetBytes") [(.call (.var n!"int64") [(.bin .mul (.var n!"count") (.var n!"MaxBytesPerNum"))] false)] false),
    .expr (.call (.dot (.var n!"b") n!"ResetTimer") [] false),
    .loop [
      .define [n!"i"] (.num 0)] (.bin .lt (.var n!"i") (.dot (.var n!"b") n!"N")) [
      .update .add (.var n!"i") (.num 1)] [
      .assign [(.var n!"ctrl")] (.call (.var n!"Put8uint32Fast") [(.var n!"nums"), (.var n!"out")] false)],
    .assign [(.var n!"writeSinkA")] (.var n!"ctrl")]

/-- `BenchmarkPut8uint32DeltaFast` -/
def encTest_BenchmarkPut8uint32DeltaFast : Func where
  name := n!"BenchmarkPut8uint32DeltaFast"
  params := [(n!"b", (.ptr (.qual n!"testing" n!"B")))]
  results := []
  body := [
    .ite [] (.bin .eq (.call (.var n!"GetMode") [] false) (.dot (.var n!"shared") n!"Normal")) [
      .expr (.call (.dot (.var n!"b") n!"Skipf") [(.str [84, 101, 115, 116, 105, 110, 103, 32, 101, 110, 118, 105, 114, 111, 110, 109, 101, 110, 116, 32, 100, 111, 101, 115, 110, 39, 116, 32, 115, 117, 112, 112, 111, 114, 116, 32, 116, 104, 105, 115, 32, 116, 101, 115, 116])] false)] [],
    .define [n!"count"] (.num 8),
    .define [n!"out"] (.call (.var n!"make") [(.type (.slice (.named n!"byte"))), (.bin .mul (.var n!"count") (.var n!"MaxBytesPerNum"))] false),
    .define [n!"nums"] (.call (.dot (.var n!"util") n!"GenUint32") [(.var n!"count")] false),
    .expr (.call (.dot (.var n!"util") n!"SortUint32") [(.var n!"nums")] false),
    .var n!"ctrl" (some (.named n!"uint16")) none,
    .expr (.call (.dot (.var n!"b") n!"SetBytes") [(.call (.var n!"int64") [(.bin .mul (.var n!"count") (.var n!"MaxBytesPerNum"))] false)] false),
    .expr (.call (.dot (.var n!"b") n!"ResetTimer") [] false),
    .loop [
      .define [n!"i"] (.num 0)] (.bin .lt (.var n!"i") (.dot (.var n!"b") n!"N")) [
      .update .add (.var n!"i") (.num 1)] [
      .assign [(.var n!"ctrl")] (.call (.var n!"Put8uint32DeltaFast") [(.var n!"nums"), (.var n!"out"), (.num 0)] false)],
    .assign [(.var n!"writeSinkB")] (.var n!"ctrl")]

/-- `BenchmarkPut8uint32Scalar` -/
def encTest_BenchmarkPut8uint32Scalar : Func where
  name := n!"BenchmarkPut8uint32Scalar"
  params := [(n!"b", (.ptr (.qual n!"testing" n!"B")))]
  results := []
  body := [
    .define [n!"count"] (.num 8),
    .define [n!"out"] (.call (.var n!"make") [(.type (.slice (.named n!"byte"))), (.bin .mul (.var n!"count") (.var n!"MaxBytesPerNum"))] false),
    .define [n!"nums"] (.call (.dot (.var n!"util") n!"GenUint32") [(.var n!"count")] false),
    .var n!"ctrl" (some (.named n!"uint16")) none,
    .expr (.call (.dot (.var n!"b") n!"SetBytes") [(.call (.var n!"int64") [(.bin .mul (.var n!"count") (.var n!"MaxBytesPerNum"))] false)] false),
    .expr (.call (.dot (.var n!"b") n!"ResetTimer") [] false),
    .loop [
      .define [n!"i"] (.num 0)] (.bin .lt (.var n!"i") (.dot (.var n!"b") n!"N")) [
      .update .add (.var n!"i") (.num 1)] [
      .assign [(.var n!"ctrl")] (.call (.var n!"Put8uint32Scalar") [(.var n!"nums"), (.var n!"out")] false)],
    .assign [(.var n!"writeSinkC")] (.var n!"ctrl")]

/-- `BenchmarkPut8uint32DeltaScalar` -/
def encTest_BenchmarkPut8uint32DeltaScalar : Func where
  name := n!"BenchmarkPut8uint32DeltaScalar"
  params := [(n!"b", (.ptr (.qual n!"testing" n!"B")))]
  results := []
  body := [
    .define [n!"count"] (.num 8),
    .define [n!"out"] (.call (.var n!"make") [(.type (.slice (.named n!"byte"))), (.bin .mul (.var n!"count") (.var n!"MaxBytesPerNum"))] false),
    .define [n!"nums"] (.call (.dot (.var n!"util") n!"GenUint32") [(.var n!"count")] false),
    .expr (.call (.dot (.var n!"util") n!"SortUint32") [(.var n!"nums")] false),
    .var n!"ctrl" (some (.named n!"uint16")) none,
    .expr (.call (.dot (.var n!"b") n!"SetBytes") [(.call (.var n!"int64") [(.bin .mul (.var n!"count") (.var n!"MaxBytesPerNum"))] false)] false),
    .expr (.call (.dot (.var n!"b") n!"ResetTimer") [] false),
    .loop [
      .define [n!"i"] (.num 0)] (.bin .lt (.var n!"i") (.dot (.var n!"b") n!"N")) [
      .update .add (.var n!"i") (.num 1)] [
      .assign [(.var n!"ctrl")] (.call (.var n!"Put8uint32DeltaScalar") [(.var n!"nums"), (.var n!"out"), (.num 0)] false)],
    .assign [(.var n!"writeSinkD")] (.var n!"ctrl")]

/-- `BenchmarkPut8uint32Varint` -/
def encTest_BenchmarkPut8uint32Varint : Func where
  name := n!"BenchmarkPut8uint32Varint"
  params := [(n!"b", (.ptr (.qual n!"testing" n!"B")))]
  results := []
  body := [
    .define [n!"count"] (.num 8),
    .define [n!"out"] (.call (.var n!"make") [(.type (.slice (.named n!"byte"))), (.bin .mul (.var n!"count") (.dot (.var n!"binary") n!"MaxVarintLen32"))] false),
    .define [n!"nums"] (.call (.dot (.var n!"util") n!"GenUint32") [(.var n!"count")] false),
    .define [n!"written"] (.num 0),
    .expr (.call (.dot (.var n!"b") n!"SetBytes") [(.call (.var n!"int64") [(.bin .mul (.var n!"count") (.var n!"MaxBytesPerNum"))] false)] false),
    .expr (.call (.dot (.var n!"b") n!"ResetTimer") [] false),
    .loop [
      .define [n!"i"] (.num 0)] (.bin .lt (.var n!"i") (.dot (.var n!"b") n!"N")) [
      .update .add (.var n!"i") (.num 1)] [
      .assign [(.var n!"written")] (.call (.dot (.var n!"util") n!"PutVarint") [(.var n!"nums"), (.var n!"out")] false)],
    .assign [(.var n!"writeSinkE")] (.var n!"written")]

/-- `BenchmarkPut8uint32DeltaVarint` -/
def encTest_BenchmarkPut8uint32DeltaVarint : Func where
  name := n!"BenchmarkPut8uint32DeltaVarint"
  params := [(n!"b", (.ptr (.qual n!"testing" n!"B")))]
  results := []
  body := [
    .define [n!"count"] (.num 8),
    .define [n!"out"] (.call (.var n!"make") [(.type (.slice (.named n!"byte"))), (.bin .mul (.var n!"count") (.dot (.var n!"binary") n!"MaxVarintLen32"))] false),
    .define [n!"nums"] (.call (.dot (.var n!"util") n!"GenUint32") [(.var n!"count")] false),
    .expr (.call (.dot (.var n!"util") n!"SortUint32") [(.var n!"nums")] false),
    .define [n!"written"] (.num 0),
    .expr (.call (.dot (.var n!"b") n!"SetBytes") [(.call (.var n!"int64") [(.bin .mul (.var n!"count") (.var n!"MaxBytesPerNum"))] false)] false),
    .expr (.call (.dot (.var n!"b") n!"ResetTimer") [] false),
    .loop [
      .define [n!"i"] (.num 0)] (.bin .lt (.var n!"i") (.dot (.var n!"b") n!"N")) [
      .update .add (.var n!"i") (.num 1)] [
      .assign [(.var n!"written")] (.call (.dot (.var n!"util") n!"PutDeltaVarint") [(.var n!"nums"), (.var n!"out"), (.num 0)] false)],
    .assign [(.var n!"writeSinkF")] (.var n!"written")]

/-- `/repo/pkg/encode/encode_test.go` -/
def encTest : File where
  pkg := n!"encode"
  imports := [n!"encoding/binary", n!"math/rand", n!"reflect", n!"testing", n!"time", n!"github.com/theMPatel/streamvbyte-simdgo/pkg/shared", n!"github.com/theMPatel/streamvbyte-simdgo/pkg/util"]
  dots := []
  types := []
  consts := []
  vars := [(n!"writeSinkA", (.deref (.call (.var n!"new") [(.type (.named n!"uint16"))] false))), (n!"writeSinkB", (.deref (.call (.var n!"new") [(.type (.named n!"uint16"))] false))), (n!"writeSinkC", (.deref (.call (.var n!"new") [(.type (.named n!"uint16"))] false))), (n!"writeSinkD", (.deref (.call (.var n!"new") [(.type (.named n!"uint16"))] false))), (n!"writeSinkE", (.deref (.call (.var n!"new") [(.type (.named n!"int"))] false))), (n!"writeSinkF", (.deref (.call (.var n!"new") [(.type (.named n!"int"))] false)))]
  funcs := [encTest_init, encTest_TestPut8uint32Scalar, encTest_TestPut8uint32DeltaScalar, encTest_TestPut8uint32Fast, encTest_TestPut8uint32DeltaFast, encTest_TestPutUint32Scalar, encTest_TestPutUint32DeltaScalar, encTest_BenchmarkPut8uint32Fast, encTest_BenchmarkPut8uint32DeltaFast, encTest_BenchmarkPut8uint32Scalar, encTest_BenchmarkPut8uint32DeltaScalar, encTest_BenchmarkPut8uint32Varint, encTest_BenchmarkPut8uint32DeltaVarint]

/-! ## `/repo/pkg/decode/decode_test.go` -/

/-- `init` -/
def decTest_init : Func where
  name := n!"init"
  params := []
  results := []
  body := [
    .expr (.call (.dot (.var n!"rand") n!"Seed") [(.call (.dot (.call (.dot (.var n!"time") n!"Now") [] false) n!"UnixNano") [] false)] false)]

/-- `TestGet8uint32Scalar` -/
def decTest_TestGet8uint32Scalar : Func where
  name := n!"TestGet8uint32Scalar"
  params := [(n!"t", (.ptr (.qual n!"testing" n!"T")))]
  results := []
  body := [
    .define [n!"count"] (.num 8),
    .define [n!"expected"] (.call (.dot (.var n!"util") n!"GenUint32") [(.var n!"count")] false),
    .define [n!"in"] (.call (.var n!"make") [(.type (.slice (.named n!"byte"))), (.bin .mul (.var n!"count") (.dot (.var n!"encode") n!"MaxBytesPerNum"))] false),
    .define [n!"ctrl"] (.call (.dot (.var n!"encode") n!"Put8uint32Scalar") [(.var n!"expected"), (.var n!"in")] false),
    .define [n!"out"] (.call (.var n!"make") [(.type (.slice (.named n!"uint32"))), (.num 8)] false),
    .expr (.call (.var n!"Get8uint32Scalar") [(.var n!"in"), (.var n!"out"), (.var n!"ctrl")] false),
    .ite [] (.call (.var n!"!") [(.call (.dot (.var n!"reflect") n!"DeepEqual") [(.var n!"expected"), (.var n!"out")] false)] false) [
      .expr (.call (.dot (.var n!"t") n!"Fatalf") [(.str [101, 120, 112, 101, 99, 116, 101, 100, 32, 37, 43, 118, 44, 32, 103, 111, 116, 32, 37, 43, 118]), (.var n!"expected"), (.var n!"out")] false)] []]

/-- `TestGet8uint32DeltaScalar` -/
def decTest_TestGet8uint32DeltaScalar : Func where
  name := n!"TestGet8uint32DeltaScalar"
  params := [(n!"t", (.ptr (.qual n!"testing" n!"T")))]
  results := []
  body := [
    .define [n!"count"] (.num 8),
    .define [n!"expected"] (.call (.dot (.var n!"util") n!"GenUint32") [(.var n!"count")] false),
    .expr (.call (.dot (.var n!"util") n!"SortUint32") [(.var n!"expected")] false),
    .define [n!"in"] (.call (.var n!"make") [(.type (.slice (.named n!"byte"))), (.bin .mul (.var n!"count") (.dot (.var n!"encode") n!"MaxBytesPerNum"))] false),
    .define [n!"ctrl"] (.call (.dot (.var n!"encode") n!"Put8uint32DeltaScalar") [(.var n!"expected"), (.var n!"in"), (.num 0)] false),
    .define [n!"out"] (.call (.var n!"make") [(.type (.slice (.named n!"uint32"))), (.num 8)] false),
    .expr (.call (.var n!"Get8uint32DeltaScalar") [(.var n!"in"), (.var n!"out"), (.var n!"ctrl"), (.num 0)] false),
    .ite [] (.call (.var n!"!") [(.call (.dot (.var n!"reflect") n!"DeepEqual") [(.var n!"expected"), (.var n!"out")] false)] false) [
      .expr (.call (.dot (.var n!"t") n!"Fatalf") [(.str [101, 120, 112, 101, 99, 116, 101, 100, 32, 37, 43, 118, 44, 32, 103, 111, 116, 32, 37, 43, 118]), (.var n!"expected"), (.var n!"out")] false)] []]

/-- `TestGet8uint32Fast` -/
def decTest_TestGet8uint32Fast : Func where
  name := n!"TestGet8uint32Fast"
  params := [(n!"t", (.ptr (.qual n!"testing" n!"T")))]
  results := []
  body := [
    .ite [] (.bin .eq (.call (.var n!"GetMode") [] false) (.dot (.var n!"shared") n!"Normal")) [
      .expr (.call (.dot (.var n!"t") n!"Skipf") [(.str [84, 101, 115, 116, 105, 110, 103, 32, 101, 110, 118, 105, 114, 111, 110, 109, 101, 110, 116, 32, 100, 111, 101, 115, 110, 39, 116, 32, 115, 117, 112, 112, 111, 114, 116, 32, 116, 104, 105, 115, 32, 116, 101, 115, 116])] false)] [],
    .define [n!"count"] (.num 8),
    .define [n!"expected"] (.call (.dot (.var n!"util") n!"GenUint32") [(.var n!"count")] false),
    .define [n!"in"] (.call (.var n!"make") [(.type (.slice (.named n!"byte"))), (.bin .mul (.var n!"count") (.dot (.var n!"encode") n!"MaxBytesPerNum"))] false),
    .define [n!"ctrl"] (.call (.dot (.var n!"encode") n!"Put8uint32Scalar") [(.var n!"expected"), (.var n!"in")] false),
    .define [n!"out"] (.call (.var n!"make") [(.type (.slice (.named n!"uint32"))), (.num 8)] false),
    .expr (.call (.var n!"Get8uint32Fast") [(.var n!"in"), (.var n!"out"), (.var n!"ctrl")] false),
    .ite [] (.call (.var n!"!") [(.call (.dot (.var n!"reflect") n!"DeepEqual") [(.var n!"expected"), (.var n!"out")] false)] false) [
      .expr (.call (.dot (.var n!"t") n!"Fatalf") [(.str [101, 120, 112, 101, 99, 116, 101, 100, 32, 37, 43, 118, 44, 32, 103, 111, 116, 32, 37, 43, 118]), (.var n!"expected"), (.var n!"out")] false)] []]

/-- `TestGet8uint32DeltaFast` -/
def decTest_TestGet8uint32DeltaFast : Func where
  name := n!"TestGet8uint32DeltaFast"
  params := [(n!"t", (.ptr (.qual n!"testing" n!"T")))]
  results := []
  body := [
    .ite [] (.bin .eq (.call (.var n!"GetMode") [] false) (.dot (.var n!"shared") n!"Normal")) [
      .expr (.call (.dot (.var n!"t") n!"Skipf") [(.str [84, 101, 115, 116, 105, 110, 103, 32, 101, 110, 118, 105, 114, 111, 110, 109, 101, 110, 116, 32, 100, 111, 101, 115, 110, 39, 116, 32, 115, 117, 112, 112, 111, 114, 116, 32, 116, 104, 105, 115, 32, 116, 101, 115, 116])] false)] [],
    .define [n!"count"] (.num 8),
    .define [n!"expected"] (.call (.dot (.var n!"util") n!"GenUint32") [(.var n!"count")] false),
    .expr (.call (.dot (.var n!"util") n!"SortUint32") [(.var n!"expected")] false),
    .define [n!"in"] (.call (.var n!"make") [(.type (.slice (.named n!"byte"))), (.bin .mul (.var n!"count") (.dot (.var n!"encode") n!"MaxBytesPerNum"))] false),
    .define [n!"ctrl"] (.call (.dot (.var n!"encode") n!"Put8uint32DeltaScalar") [(.var n!"expected"), (.var n!"in"), (.num 0)] false),
    .define [n!"out"] (.call (.var n!"make") [(.type (.slice (.named n!"uint32"))), (.num 8)] false),
    .expr (.call (.var n!"Get8uint32DeltaFast") [(.var n!"in"), (.var n!"out"), (.var n!"ctrl"), (.num 0)] false),
    .ite [] (.call (.var n!"!") [(.call (.dot (.var n!"reflect") n!"DeepEqual") [(.var n!"expected"), (.var n!"out")] false)] false) [
      .expr (.call (.dot (.var n!"t") n!"Fatalf") [(.str [101, 120, 112, 101, 99, 116, 101, 100, 32, 37, 43, 118, 44, 32, 103, 111, 116, 32, 37, 43, 118]), (.var n!"expected"), (.var n!"out")] false)] []]

/-- `TestGetUint32Scalar` -/
def decTest_TestGetUint32Scalar : Func where
  name := n!"TestGetUint32Scalar"
  params := [(n!"t", (.ptr (.qual n!"testing" n!"T")))]
  results := []
  body := [
    .define [n!"count"] (.bin .add (.call (.dot (.var n!"rand") n!"Intn") [(.num 4)] false) (.num 1)),
    .define [n!"expected"] (.call (.dot (.var n!"util") n!"GenUint32") [(.var n!"count")] false),
    .define [n!"in"] (.call (.var n!"make") [(.type (.slice (.named n!"byte"))), (.bin .mul (.var n!"count") (.dot (.var n!"encode") n!"MaxBytesPerNum"))] false),
    .define [n!"ctrl"] (.call (.dot (.var n!"encode") n!"PutUint32Scalar") [(.var n!"expected"), (.var n!"in"), (.var n!"count")] false),
    .define [n!"out"] (.call (.var n!"make") [(.type (.slice (.named n!"uint32"))), (.var n!"count")] false),
    .expr (.call (.var n!"GetUint32Scalar") [(.var n!"in"), (.var n!"out"), (.var n!"ctrl"), (.var n!"count")] false),
    .ite [] (.call (.var n!"!") [(.call (.dot (.var n!"reflect") n!"DeepEqual") [(.var n!"expected"), (.var n!"out")] false)] false) [
      .expr (.call (.dot (.var n!"t") n!"Fatalf") [(.str [101, 120, 112, 101, 99, 116, 101, 100, 32, 37, 43, 118, 44, 32, 103, 111, 116, 32, 37, 43, 118]), (.var n!"expected"), (.var n!"out")] false)] []]

/-- `TestGetUint32DeltaScalar` -/
def decTest_TestGetUint32DeltaScalar : Func where
  name := n!"TestGetUint32DeltaScalar"
  params := [(n!"t", (.ptr (.qual n!"testing" n!"T")))]
  results := []
  body := [
    .define [n!"count"] (.bin .add (.call (.dot (.var n!"rand") n!"Intn") [(.num 4)] false) (.num 1)),
    .define [n!"expected"] (.call (.dot (.var n!"util") n!"GenUint32") [(.var n!"count")] false),
    .expr (.call (.dot (.var n!"util") n!"SortUint32") [(.var n!"expected")] false),
    .define [n!"in"] (.call (.var n!"make") [(.type (.slice (.named n!"byte"))), (.bin .mul (.var n!"count") (.dot (.var n!"encode") n!"MaxBytesPerNum"))] false),
    .define [n!"deltas"] (.call (.var n!"make") [(.type (.slice (.named n!"uint32"))), (.var n!"count")] false),
    .expr (.call (.dot (.var n!"util") n!"Delta") [(.var n!"expected"), (.var n!"deltas")] false),
    .define [n!"ctrl"] (.call (.dot (.var n!"encode") n!"PutUint32Scalar") [(.var n!"deltas"), (.var n!"in"), (.var n!"count")] false),
    .define [n!"out"] (.call (.var n!"make") [(.type (.slice (.named n!"uint32"))), (.var n!"count")] false),
    .expr (.call (.var n!"GetUint32DeltaScalar") [(.var n!"in"), (.var n!"out"), (.var n!"ctrl"), (.var n!"count"), (.num 0)] false),
    .ite [] (.call (.var n!"!") [(.call (.dot (.var n!"reflect") n!"DeepEqual") [(.var n!"expected"), (.var n!"out")] false)] false) [
      .expr (.call (.dot (.var n!"t") n!"Fatalf") [(.str [101, 120, 112, 101, 99, 116, 101, 100, 32, 37, 43, 118, 44, 32, 103, 111, 116, 32, 37, 43, 118]), (.var n!"expected"), (.var n!"out")] false)] []]

/-- `BenchmarkGet8uint32Fast` -/
def decTest_BenchmarkGet8uint32Fast : Func where
  name := n!"BenchmarkGet8uint32Fast"
  params := [(n!"b", (.ptr (.qual n!"testing" n!"B")))]
  results := []
  body := [
    .ite [] (.bin .eq (.call (.var n!"GetMode") [] false) (.dot (.var n!"shared") n!"Normal")) [
      .expr (.call (.dot (.var n!"b") n!"Skipf") [(.str [84, 101, 115, 116, 105, 110, 103, 32, 101, 110, 118, 105, 114, 111, 110, 109, 101, 110, 116, 32, 100, 111, 101, 115, 110, 39, 116, 32, 115, 117, 112, 112, 111, 114, 116, 32, 116, 104, 105, 115, 32, 116, 101, 115, 116])] false)] [],
    .define [n!"count"] (.num 8),
    .define [n!"out"] (.call (.var n!"make") [(.type (.slice (.named n!"uint32"))), (.var n!"count")] false),
    .define [n!"nums"] (.call (.dot (.var n!"util") n!"GenUint32") [(.var n!"count")] false),
    .define [n!"in"] (.call (.var n!"make") [(.type (.slice (.named n!"byte"))), (.bin .mul (.var n!"count") (.dot (.var n!"encode") n!"MaxBytesPerNum"))] false),
    .define [n!"ctrl"] (.call (.dot (.var n!"encode") n!"Put8uint32Scalar") [(.var n!"nums"), (.var n!"in")] false),
    .expr (.call (.dot (.var n!"b") n!"SetBytes") [(.call (.var n!"int64") [(.bin .mul (.var n!"count") (.dot (.var n!"encode") n!"MaxBytesPerNum"))] false)] false),
    .expr (.call (.dot (.var n!"b") n!"ResetTimer") [] false),
    .loop [
      .define [n!"i"] (.num 0)] (.bin .lt (.var n!"i") (.dot (.var n!"b") n!"N")) [
      .update .add (.var n!"i") (.num 1)] [
      .expr (.call (.var n!"Get8uint32Fast") [(.var n!"in"), (.var n!"out"), (.var n!"ctrl")] false)],
    .assign [(.var n!"readSinkA")] (.var n!"out")]

/-- `BenchmarkGet8uint32DeltaFast` -/
def decTest_BenchmarkGet8uint32DeltaFast : Func where
  name := n!"BenchmarkGet8uint32DeltaFast"
  params := [(n!"b", (.ptr (.qual n!"testing" n!"B")))]
  results := []
  body := [
    .ite [] (.bin .eq (.call (.var n!"GetMode") [] false) (.dot (.var n!"shared") n!"Normal")) [
      .expr (.call (.dot (.var n!"b") n!"Skipf") [(.str [84, 101, 115, 116, 105, 110, 103, 32, 101, 110, 118, 105, 114, 111, 110, 109, 101, 110, 116, 32, 100, 111, 101, 115, 110, 39, 116, 32, 115, 117, 112, 112, 111, 114, 116, 32, 116, 104, 105, 115, 32, 116, 101, 115, 116])] false)] [],
    .define [n!"count"] (.num 8),
    .define [n!"out"] (.call (.var n!"make") [(.type (.slice (.named n!"uint32"))), (.var n!"count")] false),
    .define [n!"nums"] (.call (.dot (.var n!"util") n!"GenUint32") [(.var n!"count")] false),
    .expr (.call (.dot (.var n!"util") n!"SortUint32") [(.var n!"nums")] false),
    .define [n!"in"] (.call (.var n!"make") [(.type (.slice (.named n!"byte"))), (.bin .mul (.var n!"count") (.dot (.var n!"encode") n!"MaxBytesPerNum"))] false),
    .define [n!"ctrl"] (.call (.dot (.var n!"encode") n!"Put8uint32DeltaScalar") [(.var n!"nums"), (.var n!"in"), (.num 0)] false),
    .expr (.call (.dot (.var n!"b") n!"SetBytes") [(.call (.var n!"int64") [(.bin .mul (.var n!"count") (.dot (.var n!"encode") n!"MaxBytesPerNum"))] false)] false),
    .expr (.call (.dot (.var n!"b") n!"ResetTimer") [] false),
    .loop [
      .define [n!"i"] (.num 0)] (.bin .lt (.var n!"i") (.dot (.var n!"b") n!"N")) [
      .update .add (.var n!"i") (.num 1)] [
      .expr (.call (.var n!"Get8uint32DeltaFast") [(.var n!"in"), (.var n!"out"), (.var n!"ctrl"), (.num 0)] false)],
    .assign [(.var n!"readSinkB")] (.var n!"out")]

/-- `BenchmarkGet8uint32Scalar` -/
def decTest_BenchmarkGet8uint32Scalar : Func where
  name := n!"BenchmarkGet8uint32Scalar"
  params := [(n!"b", (.ptr (.qual n!"testing" n!"B")))]
  results := []
  body := [
    .define [n!"count"] (.num 8),
    .define [n!"out"] (.call (.var n!"make") [(.type (.slice (.named n!"uint32"))), (.var n!"count")] false),
    .define [n!"nums"] (.call (.dot (.var n!"util") n!"GenUint32") [(.var n!"count")] false),
    .define [n!"in"] (.call (.var n!"make") [(.type (.slice (.named n!"byte"))), (.bin .mul (.var n!"count") (.dot (.var n!"encode") n!"MaxBytesPerNum"))] false),
    .define [n!"ctrl"] (.call (.dot (.var n!"encode") n!"Put8uint32Scalar") [(.var n!"nums"), (.var n!"in")] false),
    .expr (.call (.dot (.var n!"b") n!"SetBytes") [(.call (.var n!"int64") [(.bin .mul (.var n!"count") (.dot (.var n!"encode") n!"MaxBytesPerNum"))] false)] false),
    .expr (.call (.dot (.var n!"b") n!"ResetTimer") [] false),
    .loop [
      .define [n!"i"] (.num 0)] (.bin .lt (.var n!"i") (.dot (.var n!"b") n!"N")) [
      .update .add (.var n!"i") (.num 1)] [
      .expr (.call (.var n!"Get8uint32Scalar") [(.var n!"in"), (.var n!"out"), (.var n!"ctrl")] false)],
    .assign [(.var n!"readSinkC")] (.var n!"out")]

/-- `BenchmarkGet8uint32DeltaScalar` -/
def decTest_BenchmarkGet8uint32DeltaScalar : Func where
  name := n!"BenchmarkGet8uint32DeltaScalar"
  params := [(n!"b", (.ptr (.qual n!"testing" n!"B")))]
  results := []
  body := [
    .define [n!"count"] (.num 8),
    .define [n!"out"] (.call (.var n!"make") [(.type (.slice (.named n!"uint32"))), (.var n!"count")] false),
    .define [n!"nums"] (.call (.dot (.var n!"util") n!"GenUint32") [(.var n!"count")] false),
    .expr (.call (.dot (.var n!"util") n!"SortUint32") [(.var n!"nums")] false),
    .define [n!"in"] (.call (.var n!"make") [(.type (.slice (.named n!"byte"))), (.bin .mul (.var n!"count") (.dot (.var n!"encode") n!"MaxBytesPerNum"))] false),
    .define [n!"ctrl"] (.call (.dot (.var n!"encode") n!"Put8uint32DeltaScalar") [(.var n!"nums"), (.var n!"in"), (.num 0)] false),
    .expr (.call (.dot (.var n!"b") n!"SetBytes") [(.call (.var n!"int64") [(.bin .mul (.var n!"count") (.dot (.var n!"encode") n!"MaxBytesPerNum"))] false)] false),
    .expr (.call (.dot (.var n!"b") n!"ResetTimer") [] false),
    .loop [
      .define [n!"i"] (.num 0)] (.bin .lt (.var n!"i") (.dot (.var n!"b") n!"N")) [
      .update .add (.var n!"i") (.num 1)] [
      .expr (.call (.var n!"Get8uint32DeltaScalar") [(.var n!"in"), (.var n!"out"), (.var n!"ctrl"), (.num 0)] false)],
    .assign [(.var n!"readSinkD")] (.var n!"out")]

/-- `BenchmarkGet8uint32Varint` -/
def decTest_BenchmarkGet8uint32Varint : Func where
  name := n!"BenchmarkGet8uint32Varint"
  params := [(n!"b", (.ptr (.qual n!"testing" n!"B")))]
  results := []
  body := [
    .define [n!"count"] (.num 8),
    .define [n!"out"] (.call (.var n!"make") [(.type (.slice (.named n!"uint32"))), (.var n!"count")] false),
    .define [n!"data"] (.call (.var n!"make") [(.type (.slice (.named n!"byte"))), (.bin .mul (.dot (.var n!"binary") n!"MaxVarintLen32") (.var n!"count"))] false),
    .define [n!"written"] (.call (.dot (.var n!"util") n!"PutVarint") [(.call (.dot (.var n!"util") n!"GenUint32") [(.var n!"count")] false), (.var n!"data")] false),
    .assign [(.var n!"data")] (.slice (.var n!"data") none (some (.var n!"written"))),
    .expr (.call (.dot (.var n!"b") n!"SetBytes") [(.call (.var n!"int64") [(.bin .mul (.var n!"count") (.dot (.var n!"encode") n!"MaxBytesPerNum"))] false)] false),
    .expr (.call (.dot (.var n!"b") n!"ResetTimer") [] false),
    .loop [
      .define [n!"i"] (.num 0)] (.bin .lt (.var n!"i") (.dot (.var n!"b") n!"N")) [
      .update .add (.var n!"i") (.num 1)] [
      .expr (.call (.dot (.var n!"util") n!"GetVarint") [(.var n!"data"), (.var n!"out")] false)],
    .assign [(.var n!"readSinkE")] (.var n!"out")]

/-- `BenchmarkGet8uint32DeltaVarint` -/
def decTest_BenchmarkGet8uint32DeltaVarint : Func where
  name := n!"BenchmarkGet8uint32DeltaVarint"
  params := [(n!"b", (.ptr (.qual n!"testing" n!"B")))]
  results := []
  body := [
    .define [n!"count"] (.num 8),
    .define [n!"out"] (.call (.var n!"make") [(.type (.slice (.named n!"uint32"))), (.var n!"count")] false),
    .define [n!"data"] (.call (.var n!"make") [(.type (.slice (.named n!"byte"))), (.bin .mul (.dot (.var n!"binary") n!"MaxVarintLen32") (.var n!"count"))] false),
    .define [n!"written"] (.call (.dot (.var n!"util") n!"PutDeltaVarint") [(.call (.dot (.var n!"util") n!"GenUint32") [(.var n!"count")] false), (.var n!"data"), (.num 0)] false),
    .assign [(.var n!"data")] (.slice (.var n!"data") none (some (.var n!"written"))),
    .expr (.call (.dot (.var n!"b") n!"SetBytes") [(.call (.var n!"int64") [(.bin .mul (.var n!"count") (.dot (.var n!"encode") n!"MaxBytesPerNum"))] false)] false),
    .expr (.call (.dot (.var n!"b") n!"ResetTimer") [] false),
    .loop [
      .define [n!"i"] (.num 0)] (.bin .lt (.var n!"i") (.dot (.var n!"b") n!"N")) [
      .update .add (.var n!"i") (.num 1)] [
      .expr (.call (.dot (.var n!"util") n!"GetDeltaVarint") [(.var n!"data"), (.var n!"out"), (.num 0)] false)],
    .assign [(.var n!"readSinkF")] (.var n!"out")]

/-- `/repo/pkg/decode/decode_test.go` -/
def decTest : File where
  pkg := n!"decode"
  imports := [n!"encoding/binary", n!"math/rand", n!"reflect", n!"testing", n!"time", n!"github.com/theMPatel/streamvbyte-simdgo/pkg/encode", n!"github.com/theMPatel/streamvbyte-simdgo/pkg/shared", n!"github.com/theMPatel/streamvbyte-simdgo/pkg/util"]
  dots := []
  types := []
  consts := []
  vars := [(n!"readSinkA", (.deref (.call (.var n!"new") [(.type (.slice (.named n!"uint32")))] false))), (n!"readSinkB", (.deref (.call (.var n!"new") [(.type (.slice (.named n!"uint32")))] false))), (n!"readSinkC", (.deref (.call (.var n!"new") [(.type (.slice (.named n!"uint32")))] false))), (n!"readSinkD", (.deref (.call (.var n!"new") [(.type (.slice (.named n!"uint32")))] false))), (n!"readSinkE", (.deref (.call (.var n!"new") [(.type (.slice (.named n!"uint32")))] false))), (n!"readSinkF", (.deref (.call (.var n!"new") [(.type (.slice (.named n!"uint32")))] false)))]
  funcs := [decTest_init, decTest_TestGet8uint32Scalar, decTest_TestGet8uint32DeltaScalar, decTest_TestGet8uint32Fast, decTest_TestGet8uint32DeltaFast, decTest_TestGetUint32Scalar, decTest_TestGetUint32DeltaScalar, decTest_BenchmarkGet8uint32Fast, decTest_BenchmarkGet8uint32DeltaFast, decTest_BenchmarkGet8uint32Scalar, decTest_BenchmarkGet8uint32DeltaScalar, decTest_BenchmarkGet8uint32Varint, decTest_BenchmarkGet8uint32DeltaVarint]

/-! ## `/repo/pkg/stream/writer/writer_test.go` -/

/-- `init` -/
def wrTest_init : Func where
  name := n!"init"
  params := []
  results := []
  body := [
    .expr (.call (.dot (.var n!"rand") n!"Seed") [(.call (.dot (.call (.dot (.var n!"time") n!"Now") [] false) n!"UnixNano") [] false)] false)]

/-- `TestWriteAllScalar` -/
def wrTest_TestWriteAllScalar : Func where
  name := n!"TestWriteAllScalar"
  params := [(n!"t", (.ptr (.qual n!"testing" n!"T")))]
  results := []
  body := [
    .loop [
      .define [n!"i"] (.num 0)] (.bin .lt (.var n!"i") (.num 6)) [
      .update .add (.var n!"i") (.num 1)] [
      .define [n!"count"] (.call (.var n!"int") [(.bin .rem (.call (.dot (.var n!"util") n!"RandUint32") [] false) (.num 1000000))] false),
      .define [n!"nums"] (.call (.dot (.var n!"util") n!"GenUint32") [(.var n!"count")] false),
      .define [n!"stream"] (.call (.var n!"WriteAllScalar") [(.var n!"nums")] false),
      .expr (.call (.dot (.var n!"t") n!"Run") [(.call (.dot (.var n!"fmt") n!"Sprintf") [(.str [87, 114, 105, 116, 101, 65, 108, 108, 58, 32, 37, 100]), (.var n!"count")] false), (.func [(n!"t", (.ptr (.qual n!"testing" n!"T")))] [] [
        .define [n!"out"] (.call (.var n!"make") [(.type (.slice (.named n!"uint32"))), (.var n!"count")] false),
        .expr (.call (.dot (.var n!"reader") n!"ReadAllScalar") [(.var n!"count"), (.var n!"stream"), (.var n!"out")] false),
        .ite [] (.call (.var n!"!") [(.call (.dot (.var n!"reflect") n!"DeepEqual") [(.var n!"nums"), (.var n!"out")] false)] false) [
          .expr (.call (.dot (.var n!"t") n!"Fatalf") [(.str [100, 101, 99, 111, 100, 101, 100, 32, 119, 114, 111, 110, 103, 32, 110, 117, 109, 115])] false)] []])] false)]]

/-- `TestWriteAllDeltaScalar` -/
def wrTest_TestWriteAllDeltaScalar : Func where
  name := n!"TestWriteAllDeltaScalar"
  params := [(n!"t", (.ptr (.qual n!"testing" n!"T")))]
  results := []
  body := [
    .loop [
      .define [n!"i"] (.num 0)] (.bin .lt (.var n!"i") (.num 6)) [
      .update .add (.var n!"i") (.num 1)] [
      .define [n!"count"] (.call (.var n!"int") [(.bin .rem (.call (.dot (.var n!"util") n!"RandUint32") [] false) (.num 1000000))] false),
      .define [n!"nums"] (.call (.dot (.var n!"util") n!"GenUint32") [(.var n!"count")] false),
      .expr (.call (.dot (.var n!"util") n!"SortUint32") [(.var n!"nums")] false),
      .define [n!"diffed"] (.call (.var n!"make") [(.type (.slice (.named n!"uint32"))), (.var n!"count")] false),
      .expr (.call (.dot (.var n!"util") n!"Delta") [(.var n!"nums"), (.var n!"diffed")] false),
      .define [n!"stream"] (.call (.var n!"WriteAllScalar") [(.var n!"diffed")] false),
      .expr (.call (.dot (.var n!"t") n!"Run") [(.call (.dot (.var n!"fmt") n!"Sprintf") [(.str [87, 114, 105, 116, 101, 65, 108, 108, 58, 32, 37, 100]), (.var n!"count")] false), (.func [(n!"t", (.ptr (.qual n!"testing" n!"T")))] [] [
        .define [n!"actual"] (.call (.var n!"WriteAllDeltaScalar") [(.var n!"nums"), (.num 0)] false),
        .ite [] (.call (.var n!"!") [(.call (.dot (.var n!"reflect") n!"DeepEqual") [(.var n!"stream"), (.var n!"actual")] false)] false) [
          .expr (.call (.dot (.var n!"t") n!"Fatalf") [(.str [98, 97, 100, 32, 101, 110, 99, 111, 100, 105, 110, 103])] false)] []])] false)]]

/-- `TestWriteAllFast` -/
def wrTest_TestWriteAllFast : Func where
  name := n!"TestWriteAllFast"
  params := [(n!"t", (.ptr (.qual n!"testing" n!"T")))]
  results := []
  body := [
    .ite [] (.bin .eq (.call (.dot (.var n!"encode") n!"GetMode") [] false) (.dot (.var n!"shared") n!"Normal")) [
      .expr (.call (.dot (.var n!"t") n!"Skipf") [(.str [84, 101, 115, 116, 105, 110, 103, 32, 101, 110, 118, 105, 114, 111, 110, 109, 101, 110, 116, 32, 100, 111, 101, 115, 110, 39, 116, 32, 115, 117, 112, 112, 111, 114, 116, 32, 116, 104, 105, 115, 32, 116, 101, 115, 116])] false)] [],
    .loop [
      .define [n!"i"] (.num 0)] (.bin .lt (.var n!"i") (.num 6)) [
      .update .add (.var n!"i") (.num 1)] [
      .define [n!"count"] (.call (.var n!"int") [(.bin .rem (.call (.dot (.var n!"util") n!"RandUint32") [] false) (.num 1000000))] false),
      .define [n!"nums"] (.call (.dot (.var n!"util") n!"GenUint32") [(.var n!"count")] false),
      .define [n!"stream"] (.call (.var n!"WriteAllScalar") [(.var n!"nums")] false),
      .expr (.call (.dot (.var n!"t") n!"Run") [(.call (.dot (.var n!"fmt") n!"Sprintf") [(.str [87, 114, 105, 116, 101, 65, 108, 108, 58, 32, 37, 100]), (.var n!"count")] false), (.func [(n!"t", (.ptr (.qual n!"testing" n!"T")))] [] [
        .define [n!"actual"] (.call (.var n!"WriteAllFast") [(.var n!"nums")] false),
        .ite [] (.call (.var n!"!") [(.call (.dot (.var n!"reflect") n!"DeepEqual") [(.var n!"stream"), (.var n!"actual")] false)] false) [
          .expr (.call (.dot (.var n!"t") n!"Fatalf") [(.str [98, 97, 100, 32, 101, 110, 99, 111, 100, 105, 110, 103])] false)] []])] false)]]

/-- `TestWriteAllDeltaFast` -/
def wrTest_TestWriteAllDeltaFast : Func where
  name := n!"TestWriteAllDeltaFast"
  params := [(n!"t", (.ptr (.qual n!"testing" n!"T")))]
  results := []
  body := [
    .ite [] (.bin .eq (.call (.dot (.var n!"encode") n!"GetMode") [] false) (.dot (.var n!"shared") n!"Normal")) [
      .expr (.call (.dot (.var n!"t") n!"Skipf") [(.str [84, 101, 115, 116, 105, 110, 103, 32, 101, 110, 118, 105, 114, 111, 110, 109, 101, 110, 116, 32, 100, 111, 101, 115, 110, 39, 116, 32, 115, 117, 112, 112, 111, 114, 116, 32, 116, 104, 105, 115, 32, 116, 101, 115, 116])] false)] [],
    .loop [
      .define [n!"i"] (.num 0)] (.bin .lt (.var n!"i") (.num 6)) [
      .update .add (.var n!"i") (.num 1)] [
      .define [n!"count"] (.call (.var n!"int") [(.bin .rem (.call (.dot (.var n!"util") n!"RandUint32") [] false) (.num 1000000))] false),
      .define [n!"nums"] (.call (.dot (.var n!"util") n!"GenUint32") [(.var n!"count")] false),
      .expr (.call (.dot (.var n!"util") n!"SortUint32") [(.var n!"nums")] false),
      .define [n!"diffed"] (.call (.var n!"make") [(.type (.slice (.named n!"uint32"))), (.var n!"count")] false),
      .expr (.call (.dot (.var n!"util") n!"Delta") [(.var n!"nums"), (.var n!"diffed")] false),
      .define [n!"stream"] (.call (.var n!"WriteAllScalar") [(.var n!"diffed")] false),
      .expr (.call (.dot (.var n!"t") n!"Run") [(.call (.dot (.var n!"fmt") n!"Sprintf") [(.str [87, 114, 105, 116, 101, 65, 108, 108, 58, 32, 37, 100]), (.var n!"count")] false), (.func [(n!"t", (.ptr (.qual n!"testing" n!"T")))] [] [
        .define [n!"actual"] (.call (.var n!"WriteAllDeltaFast") [(.var n!"nums"), (.num 0)] false),
        .ite [] (.call (.var n!"!") [(.call (.dot (.var n!"reflect") n!"DeepEqual") [(.var n!"stream"), (.var n!"actual")] false)] false) [
          .expr (.call (.dot (.var n!"t") n!"Fatalf") [(.str [98, 97, 100, 32, 101, 110, 99, 111, 100, 105, 110, 103])] false)] []])] false)]]

/-- `BenchmarkWriteAllFast` -/
def wrTest_BenchmarkWriteAllFast : Func where
  name := n!"BenchmarkWriteAllFast"
  params := [(n!"b", (.ptr (.qual n!"testing" n!"B")))]
  results := []
  body := [
    .ite [] (.bin .eq (.call (.dot (.var n!"encode") n!"GetMode") [] false) (.dot (.var n!"shared") n!"Normal")) [
      .expr (.call (.dot (.var n!"b") n!"Skipf") [(.str [84, 101, 115, 116, 105, 110, 103, 32, 101, 110, 118, 105, 114, 111, 110, 109, 101, 110, 116, 32, 100, 111, 101, 115, 110, 39, 116, 32, 115, 117, 112, 112, 111, 114, 116, 32, 116, 104, 105, 115, 32, 116, 101, 115, 116])] false)] [],
    .loop [
      .define [n!"i"] (.num 0)] (.bin .lt (.var n!"i") (.num 8)) [
      .update .add (.var n!"i") (.num 1)] [
      .define [n!"count"] (.call (.var n!"int") [(.call (.dot (.var n!"math") n!"Pow10") [(.var n!"i")] false)] false),
      .define [n!"nums"] (.call (.dot (.var n!"util") n!"GenUint32") [(.var n!"count")] false),
      .expr (.call (.dot (.var n!"b") n!"Run") [(.call (.dot (.var n!"fmt") n!"Sprintf") [(.str [67, 111, 117, 110, 116, 95, 49, 101, 37, 100]), (.var n!"i")] false), (.func [(n!"b", (.ptr (.qual n!"testing" n!"B")))] [] [
        .var n!"stream" (some (.slice (.named n!"byte"))) none,
        .expr (.call (.dot (.var n!"b") n!"SetBytes") [(.call (.var n!"int64") [(.bin .mul (.var n!"count") (.dot (.var n!"encode") n!"MaxBytesPerNum"))] false)] false),
        .expr (.call (.dot (.var n!"b") n!"ResetTimer") [] false),
        .loop [
          .define [n!"i"] (.num 0)] (.bin .lt (.var n!"i") (.dot (.var n!"b") n!"N")) [
          .update .add (.var n!"i") (.num 1)] [
          .assign [(.var n!"stream")] (.call (.var n!"WriteAllFast") [(.var n!"nums")] false)],
        .assign [(.var n!"readSinkA")] (.var n!"stream")])] false)]]

/-- `BenchmarkWriteAllDeltaFast` -/
def wrTest_BenchmarkWriteAllDeltaFast : Func where
  name := n!"BenchmarkWriteAllDeltaFast"
  params := [(n!"b", (.ptr (.qual n!"testing" n!"B")))]
  results := []
  body := [
    .ite [] (.bin .eq (.call (.dot (.var n!"encode") n!"GetMode") [] false) (.dot (.var n!"shared") n!"Normal")) [
      .expr (.call (.dot (.var n!"b") n!"Skipf") [(.str [84, 101, 115, 116, 105, 110, 103, 32, 101, 110, 118, 105, 114, 111, 110, 109, 101, 110, 116, 32, 100, 111, 101, 115, 110, 39, 116, 32, 115, 117, 112, 112, 111, 114, 116, 32, 116, 104, 105, 115, 32, 116, 101, 115, 116])] false)] [],
    .loop [
      .define [n!"i"] (.num 0)] (.bin .lt (.var n!"i") (.num 8)) [
      .update .add (.var n!"i") (.num 1)] [
      .define [n!"count"] (.call (.var n!"int") [(.call (.dot (.var n!"math") n!"Pow10") [(.var n!"i")] false)] false),
      .define [n!"nums"] (.call (.dot (.var n!"util") n!"GenUint32") [(.var n!"count")] false),
      .expr (.call (.dot (.var n!"util") n!"SortUint32") [(.var n!"nums")] false),
      .expr (.call (.dot (.var n!"b") n!"Run") [(.call (.dot (.var n!"fmt") n!"Sprintf") [(.str [67, 111, 117, 110, 116, 95, 49, 101, 37, 100]), (.var n!"i")] false), (.func [(n!"b", (.ptr (.qual n!"testing" n!"B")))] [] [
        .var n!"stream" (some (.slice (.named n!"byte"))) none,
        .expr (.call (.dot (.var n!"b") n!"SetBytes") [(.call (.var n!"int64") [(.bin .mul (.var n!"count") (.dot (.var n!"encode") n!"MaxBytesPerNum"))] false)] false),
        .expr (.call (.dot (.var n!"b") n!"ResetTimer") [] false),
        .loop [
          .define [n!"i"] (.num 0)] (.bin .lt (.var n!"i") (.dot (.var n!"b") n!"N")) [
          .update .add (.var n!"i") (.num 1)] [
          .assign [(.var n!"stream")] (.call (.var n!"WriteAllDeltaFast") [(.var n!"nums"), (.num 0)] false)],
        .assign [(.var n!"readSinkB")] (.var n!"stream")])] false)]]

/-- `BenchmarkWriteAllScalar` -/
def wrTest_BenchmarkWriteAllScalar : Func where
  name := n!"BenchmarkWriteAllScalar"
  params := [(n!"b", (.ptr (.qual n!"testing" n!"B")))]
  results := []
  body := [
    .loop [
      .define [n!"i"] (.num 0)] (.bin .lt (.var n!"i") (.num 8)) [
      .update .add (.var n!"i") (.num 1)] [
      .define [n!"count"] (.call (.var n!"int") [(.call (.dot (.var n!"math") n!"Pow10") [(.var n!"i")] false)] false),
      .define [n!"nums"] (.call (.dot (.var n!"util") n!"GenUint32") [(.var n!"count")] false),
      .expr (.call (.dot (.var n!"util") n!"SortUint32") [(.var n!"nums")] false),
      .expr (.call (.dot (.var n!"b") n!"Run") [(.call (.dot (.var n!"fmt") n!"Sprintf") [(.str [67, 111, 117, 110, 116, 95, 49, 101, 37, 100]), (.var n!"i")] false), (.func [(n!"b", (.ptr (.qual n!"testing" n!"B")))] [] [
        .var n!"stream" (some (.slice (.named n!"byte"))) none,
        .expr (.call (.dot (.var n!"b") n!"SetBytes") [(.call (.var n!"int64") [(.bin .mul (.var n!"count") (.dot (.var n!"encode") n!"MaxBytesPerNum"))] false)] false),
        .expr (.call (.dot (.var n!"b") n!"ResetTimer") [] false),
        .loop [
          .define [n!"i"] (.num 0)] (.bin .lt (.var n!"i") (.dot (.var n!"b") n!"N")) [
          .update .add (.var n!"i") (.num 1)] [
          .assign [(.var n!"stream")] (.call (.var n!"WriteAllScalar") [(.var n!"nums")] false)],
        .assign [(.var n!"readSinkC")] (.var n!"stream")])] false)]]

/-- `BenchmarkWriteAllDeltaScalar` -/
def wrTest_BenchmarkWriteAllDeltaScalar : Func where
  name := n!"BenchmarkWriteAllDeltaScalar"
  params := [(n!"b", (.ptr (.qual n!"testing" n!"B")))]
  results := []
  body := [
    .loop [
      .define [n!"i"] (.num 0)] (.bin .lt (.var n!"i") (.num 8)) [
      .update .add (.var n!"i") (.num 1)] [
      .define [n!"count"] (.call (.var n!"int") [(.call (.dot (.var n!"math") n!"Pow10") [(.var n!"i")] false)] false),
      .define [n!"nums"] (.call (.dot (.var n!"util") n!"GenUint32") [(.var n!"count")] false),
      .expr (.call (.dot (.var n!"util") n!"SortUint32") [(.var n!"nums")] false),
      .expr (.call (.dot (.var n!"b") n!"Run") [(.call (.dot (.var n!"fmt") n!"Sprintf") [(.str [67, 111, 117, 110, 116, 95, 49, 101, 37, 100]), (.var n!"i")] false), (.func [(n!"b", (.ptr (.qual n!"testing" n!"B")))] [] [
        .var n!"stream" (some (.slice (.named n!"byte"))) none,
        .expr (.call (.dot (.var n!"b") n!"SetBytes") [(.call (.var n!"int64") [(.bin .mul (.var n!"count") (.dot (.var n!"encode") n!"MaxBytesPerNum"))] false)] false),
        .expr (.call (.dot (.var n!"b") n!"ResetTimer") [] false),
        .loop [
          .define [n!"i"] (.num 0)] (.bin .lt (.var n!"i") (.dot (.var n!"b") n!"N")) [
          .update .add (.var n!"i") (.num 1)] [
          .assign [(.var n!"stream")] (.call (.var n!"WriteAllDeltaScalar") [(.var n!"nums"), (.num 0)] false)],
        .assign [(.var n!"readSinkD")] (.var n!"stream")])] false)]]

/-- `BenchmarkWriteAllVarint` -/
def wrTest_BenchmarkWriteAllVarint : Func where
  name := n!"BenchmarkWriteAllVarint"
  params := [(n!"b", (.ptr (.qual n!"testing" n!"B")))]
  results := []
  body := [
    .loop [
      .define [n!"i"] (.num 0)] (.bin .lt (.var n!"i") (.num 8)) [
      .update .add (.var n!"i") (.num 1)] [
      .define [n!"count"] (.call (.var n!"int") [(.call (.dot (.var n!"math") n!"Pow10") [(.var n!"i")] false)] false),
      .define [n!"nums"] (.call (.dot (.var n!"util") n!"GenUint32") [(.var n!"count")] false),
      .expr (.call (.dot (.var n!"util") n!"SortUint32") [(.var n!"nums")] false),
      .define [n!"out"] (.call (.var n!"make") [(.type (.slice (.named n!"byte"))), (.bin .mul (.var n!"count") (.dot (.var n!"binary") n!"MaxVarintLen32"))] false),
      .define [n!"written"] (.num 0),
      .expr (.call (.dot (.var n!"b") n!"Run") [(.call (.dot (.var n!"fmt") n!"Sprintf") [(.str [67, 111, 117, 110, 116, 95, 49, 101, 37, 100]), (.var n!"i")] false), (.func [(n!"b", (.ptr (.qual n!"testing" n!"B")))] [] [
        .expr (.call (.dot (.var n!"b") n!"SetBytes") [(.call (.var n!"int64") [(.bin .mul (.var n!"count") (.dot (.var n!"encode") n!"MaxBytesPerNum"))] false)] false),
        .expr (.call (.dot (.var n!"b") n!"ResetTimer") [] false),
        .loop [
          .define [n!"i"] (.num 0)] (.bin .lt (.var n!"i") (.dot (.var n!"b") n!"N")) [
          .update .add (.var n!"i") (.num 1)] [
          .assign [(.var n!"written")] (.call (.dot (.var n!"util") n!"PutVarint") [(.var n!"nums"), (.var n!"out")] false)],
        .assign [(.var n!"readSinkE")] (.var n!"written")])] false)]]

/-- `BenchmarkWriteAllDeltaVarint` -/
def wrTest_BenchmarkWriteAllDeltaVarint : Func where
  name := n!"BenchmarkWriteAllDeltaVarint"
  params := [(n!"b", (.ptr (.qual n!"testing" n!"B")))]
  results := []
  body := [
    .loop [
      .define [n!"i"] (.num 0)] (.bin .lt (.var n!"i") (.num 8)) [
      .update .add (.var n!"i") (.num 1)] [
      .define [n!"count"] (.call (.var n!"int") [(.call (.dot (.var n!"math") n!"Pow10") [(.var n!"i")] false)] false),
      .define [n!"nums"] (.call (.dot (.var n!"util") n!"GenUint32") [(.var n!"count")] false),
      .expr (.call (.dot (.var n!"util") n!"SortUint32") [(.var n!"nums")] false),
      .define [n!"out"] (.call (.var n!"make") [(.type (.slice (.named n!"byte"))), (.bin .mul (.var n!"count") (.dot (.var n!"binary") n!"MaxVarintLen32"))] false),
      .define [n!"written"] (.num 0),
      .expr (.call (.dot (.var n!"b") n!"Run") [(.call (.dot (.var n!"fmt") n!"Sprintf") [(.str [67, 111, 117, 110, 116, 95, 49, 101, 37, 100]), (.var n!"i")] false), (.func [(n!"b", (.ptr (.qual n!"testing" n!"B")))] [] [
        .expr (.call (.dot (.var n!"b") n!"SetBytes") [(.call (.var n!"int64") [(.bin .mul (.var n!"count") (.dot (.var n!"encode") n!"MaxBytesPerNum"))] false)] false),
        .expr (.call (.dot (.var n!"b") n!"ResetTimer") [] false),
        .loop [
          .define [n!"i"] (.num 0)] (.bin .lt (.var n!"i") (.dot (.var n!"b") n!"N")) [
          .update .add (.var n!"i") (.num 1)] [
          .assign [(.var n!"written")] (.call (.dot (.var n!"util") n!"PutDeltaVarint") [(.var n!"nums"), (.var n!"out"), (.num 0)] false)],
        .assign [(.var n!"readSinkE")] (.var n!"written")])] false)]]

/-- `/repo/pkg/stream/writer/writer_test.go` -/
def wrTest : File where
  pkg := n!"writer"
  imports := [n!"encoding/binary", n!"fmt", n!"math", n!"math/rand", n!"reflect", n!"testing", n!"time", n!"github.com/theMPatel/streamvbyte-simdgo/pkg/encode", n!"github.com/theMPatel/streamvbyte-simdgo/pkg/shared", n!"github.com/theMPatel/streamvbyte-simdgo/pkg/stream/reader", n!"github.com/theMPatel/streamvbyte-simdgo/pkg/util"]
  dots := []
  types := []
  consts := []
  vars := [(n!"readSinkA", (.deref (.call (.var n!"new") [(.type (.slice (.named n!"byte")))] false))), (n!"readSinkB", (.deref (.call (.var n!"new") [(.type (.slice (.named n!"byte")))] false))), (n!"readSinkC", (.deref (.call (.var n!"new") [(.type (.slice (.named n!"byte")))] false))), (n!"readSinkD", (.deref (.call (.var n!"new") [(.type (.slice (.named n!"byte")))] false))), (n!"readSinkE", (.deref (.call (.var n!"new") [(.type (.named n!"int"))] false))), (n!"readSinkF", (.deref (.call (.var n!"new") [(.type (.named n!"int"))] false)))]
  funcs := [wrTest_init, wrTest_TestWriteAllScalar, wrTest_TestWriteAllDeltaScalar, wrTest_TestWriteAllFast, wrTest_TestWriteAllDeltaFast, wrTest_BenchmarkWriteAllFast, wrTest_BenchmarkWriteAllDeltaFast, wrTest_BenchmarkWriteAllScalar, wrTest_BenchmarkWriteAllDeltaScalar, wrTest_BenchmarkWriteAllVarint, wrTest_BenchmarkWriteAllDeltaVarint]

/-! ## `/repo/pkg/stream/reader/reader_test.go` -/

/-- `init` -/
def rdTest_init : Func where
  name := n!"init"
  params := []
  results := []
  body := [
    .expr (.call (.dot (.var n!"rand") n!"Seed") [(.call (.dot (.call (.dot (.var n!"time") n!"Now") [] false) n!"UnixNano") [] false)] false)]

/-- `TestReadAllScalar` -/
def rdTest_TestReadAllScalar : Func where
  name := n!"TestReadAllScalar"
  params := [(n!"t", (.ptr (.qual n!"testing" n!"T")))]
  results := []
  body := [
    .loop [
      .define [n!"i"] (.num 0)] (.bin .lt (.var n!"i") (.num 6)) [
      .update .add (.var n!"i") (.num 1)] [
      .define [n!"count"] (.call (.var n!"int") [(.bin .rem (.call (.dot (.var n!"util") n!"RandUint32") [] false) (.num 1000000))] false),
      .define [n!"nums"] (.call (.dot (.var n!"util") n!"GenUint32") [(.var n!"count")] false),
      .define [n!"stream"] (.call (.dot (.var n!"writer") n!"WriteAllScalar") [(.var n!"nums")] false),
      .expr (.call (.dot (.var n!"t") n!"Run") [(.call (.dot (.var n!"fmt") n!"Sprintf") [(.str [82, 101, 97, 100, 65, 108, 108, 58, 32, 37, 100]), (.var n!"count")] false), (.func [(n!"t", (.ptr (.qual n!"testing" n!"T")))] [] [
        .define [n!"out"] (.call (.var n!"make") [(.type (.slice (.named n!"uint32"))), (.var n!"count")] false),
        .expr (.call (.var n!"ReadAllScalar") [(.var n!"count"), (.var n!"stream"), (.var n!"out")] false),
        .ite [] (.call (.var n!"!") [(.call (.dot (.var n!"reflect") n!"DeepEqual") [(.var n!"nums"), (.var n!"out")] false)] false) [
          .expr (.call (.dot (.var n!"t") n!"Fatalf") [(.str [100, 101, 99, 111, 100, 101, 100, 32, 119, 114, 111, 110, 103, 32, 110, 117, 109, 115])] false)] []])] false)]]

/-- `TestReadAllDeltaScalar` -/
def rdTest_TestReadAllDeltaScalar : Func where
  name := n!"TestReadAllDeltaScalar"
  params := [(n!"t", (.ptr (.qual n!"testing" n!"T")))]
  results := []
  body := [
    .loop [
      .define [n!"i"] (.num 0)] (.bin .lt (.var n!"i") (.num 6)) [
      .update .add (.var n!"i") (.num 1)] [
      .define [n!"count"] (.call (.var n!"int") [(.bin .rem (.call (.dot (.var n!"util") n!"RandUint32") [] false) (.num 1000000))] false),
      .define [n!"nums"] (.call (.dot (.var n!"util") n!"GenUint32") [(.var n!"count")] false),
      .expr (.call (.dot (.var n!"util") n!"SortUint32") [(.var n!"nums")] false),
      .define [n!"stream"] (.call (.dot (.var n!"writer") n!"WriteAllDeltaScalar") [(.var n!"nums"), (.num 0)] false),
      .expr (.call (.dot (.var n!"t") n!"Run") [(.call (.dot (.var n!"fmt") n!"Sprintf") [(.str [82, 101, 97, 100, 65, 108, 108, 58, 32, 37, 100]), (.var n!"count")] false), (.func [(n!"t", (.ptr (.qual n!"testing" n!"T")))] [] [
        .define [n!"out"] (.call (.var n!"make") [(.type (.slice (.named n!"uint32"))), (.var n!"count")] false),
        .expr (.call (.var n!"ReadAllDeltaScalar") [(.var n!"count"), (.var n!"stream"), (.var n!"out"), (.num 0)] false),
        .ite [] (.call (.var n!"!") [(.call (.dot (.var n!"reflect") n!"DeepEqual") [(.var n!"nums"), (.var n!"out")] false)] false) [
          .expr (.call (.dot (.var n!"t") n!"Fatalf") [(.str [100, 101, 99, 111, 100, 101, 100, 32, 119, 114, 111, 110, 103, 32, 110, 117, 109, 115])] false)] []])] false)]]

/-- `TestReadAllFast` -/
def rdTest_TestReadAllFast : Func where
  name := n!"TestReadAllFast"
  params := [(n!"t", (.ptr (.qual n!"testing" n!"T")))]
  results := []
  body := [
    .ite [] (.bin .eq (.call (.dot (.var n!"decode") n!"GetMode") [] false) (.dot (.var n!"shared") n!"Normal")) [
      .expr (.call (.dot (.var n!"t") n!"Skipf") [(.str [84, 101, 115, 116, 105, 110, 103, 32, 101, 110, 118, 105, 114, 111, 110, 109, 101, 110, 116, 32, 100, 111, 101, 115, 110, 39, 116, 32, 115, 117, 112, 112, 111, 114, 116, 32, 116, 104, 105, 115, 32, 116, 101, 115, 116])] false)] [],
    .loop [
      .define [n!"i"] (.num 0)] (.bin .lt (.var n!"i") (.num 6)) [
      .update .add (.var n!"i") (.num 1)] [
      .define [n!"count"] (.call (.var n!"int") [(.bin .rem (.call (.dot (.var n!"util") n!"RandUint32") [] false) (.num 1000000))] false),
      .define [n!"nums"] (.call (.dot (.var n!"util") n!"GenUint32") [(.var n!"count")] false),
      .define [n!"stream"] (.call (.dot (.var n!"writer") n!"WriteAllScalar") [(.var n!"nums")] false),
      .expr (.call (.dot (.var n!"t") n!"Run") [(.call (.dot (.var n!"fmt") n!"Sprintf") [(.str [82, 101, 97, 100, 65, 108, 108, 58, 32, 37, 100]), (.var n!"count")] false), (.func [(n!"t", (.ptr (.qual n!"testing" n!"T")))] [] [
        .define [n!"out"] (.call (.var n!"make") [(.type (.slice (.named n!"uint32"))), (.var n!"count")] false),
        .expr (.call (.var n!"ReadAllFast") [(.var n!"count"), (.var n!"stream"), (.var n!"out")] false),
        .ite [] (.call (.var n!"!") [(.call (.dot (.var n!"reflect") n!"DeepEqual") [(.var n!"nums"), (.var n!"out")] false)] false) [
          .expr (.call (.dot (.var n!"t") n!"Fatalf") [(.str [100, 101, 99, 111, 100, 101, 100, 32, 119, 114, 111, 110, 103, 32, 110, 117, 109, 115])] false)] []])] false)]]

/-- `TestReadAllDeltaFast` -/
def rdTest_TestReadAllDeltaFast : Func where
  name := n!"TestReadAllDeltaFast"
  params := [(n!"t", (.ptr (.qual n!"testing" n!"T")))]
  results := []
  body := [
    .ite [] (.bin .eq (.call (.dot (.var n!"decode") n!"GetMode") [] false) (.dot (.var n!"shared") n!"Normal")) [
      .expr (.call (.dot (.var n!"t") n!"Skipf") [(.str [84, 101, 115, 116, 105, 110, 103, 32, 101, 110, 118, 105, 114, 111, 110, 109, 101, 110, 116, 32, 100, 111, 101, 115, 110, 39, 116, 32, 115, 117, 112, 112, 111, 114, 116, 32, 116, 104, 105, 115, 32, 116, 101, 115, 116])] false)] [],
    .loop [
      .define [n!"i"] (.num 0)] (.bin .lt (.var n!"i") (.num 6)) [
      .update .add (.var n!"i") (.num 1)] [
      .define [n!"count"] (.call (.var n!"int") [(.bin .rem (.call (.dot (.var n!"util") n!"RandUint32") [] false) (.num 1000000))] false),
      .define [n!"nums"] (.call (.dot (.var n!"util") n!"GenUint32") [(.var n!"count")] false),
      .expr (.call (.dot (.var n!"util") n!"SortUint32") [(.var n!"nums")] false),
      .define [n!"diffed"] (.call (.var n!"make") [(.type (.slice (.named n!"uint32"))), (.var n!"count")] false),
      .expr (.call (.dot (.var n!"util") n!"Delta") [(.var n!"nums"), (.var n!"diffed")] false),
      .define [n!"stream"] (.call (.dot (.var n!"writer") n!"WriteAllScalar") [(.var n!"diffed")] false),
      .expr (.call (.dot (.var n!"t") n!"Run") [(.call (.dot (.var n!"fmt") n!"Sprintf") [(.str [82, 101, 97, 100, 65, 108, 108, 58, 32, 37, 100]), (.var n!"count")] false), (.func [(n!"t", (.ptr (.qual n!"testing" n!"T")))] [] [
        .define [n!"out"] (.call (.var n!"make") [(.type (.slice (.named n!"uint32"))), (.var n!"count")] false),
        .expr (.call (.var n!"ReadAllDeltaFast") [(.var n!"count"), (.var n!"stream"), (.var n!"out"), (.num 0)] false),
        .ite [] (.call (.var n!"!") [(.call (.dot (.var n!"reflect") n!"DeepEqual") [(.var n!"nums"), (.var n!"out")] false)] false) [
          .expr (.call (.dot (.var n!"t") n!"Fatalf") [(.str [100, 101, 99, 111, 100, 101, 100, 32, 119, 114, 111, 110, 103, 32, 110, 117, 109, 115])] false)] []])] false)]]

/-- `BenchmarkReadAllFast` -/
def rdTest_BenchmarkReadAllFast : Func where
  name := n!"BenchmarkReadAllFast"
  params := [(n!"b", (.ptr (.qual n!"testing" n!"B")))]
  results := []
  body := [
    .ite [] (.bin .eq (.call (.dot (.var n!"decode") n!"GetMode") [] false) (.dot (.var n!"shared") n!"Normal")) [
      .expr (.call (.dot (.var n!"b") n!"Skipf") [(.str [84, 101, 115, 116, 105, 110, 103, 32, 101, 110, 118, 105, 114, 111, 110, 109, 101, 110, 116, 32, 100, 111, 101, 115, 110, 39, 116, 32, 115, 117, 112, 112, 111, 114, 116, 32, 116, 104, 105, 115, 32, 116, 101, 115, 116])] false)] [],
    .loop [
      .define [n!"i"] (.num 0)] (.bin .lt (.var n!"i") (.num 8)) [
      .update .add (.var n!"i") (.num 1)] [
      .define [n!"count"] (.call (.var n!"int") [(.call (.dot (.var n!"math") n!"Pow10") [(.var n!"i")] false)] false),
      .define [n!"nums"] (.call (.dot (.var n!"util") n!"GenUint32") [(.var n!"count")] false),
      .define [n!"stream"] (.call (.dot (.var n!"writer") n!"WriteAllScalar") [(.var n!"nums")] false),
      .define [n!"out"] (.call (.var n!"make") [(.type (.slice (.named n!"uint32"))), (.var n!"count")] false),
      .expr (.call (.dot (.var n!"b") n!"Run") [(.call (.dot (.var n!"fmt") n!"Sprintf") [(.str [67, 111, 117, 110, 116, 95, 49, 101, 37, 100]), (.var n!"i")] false), (.func [(n!"b", (.ptr (.qual n!"testing" n!"B")))] [] [
        .expr (.call (.dot (.var n!"b") n!"SetBytes") [(.call (.var n!"int64") [(.bin .mul (.var n!"count") (.dot (.var n!"encode") n!"MaxBytesPerNum"))] false)] false),
        .expr (.call (.dot (.var n!"b") n!"ResetTimer") [] false),
        .loop [
          .define [n!"i"] (.num 0)] (.bin .lt (.var n!"i") (.dot (.var n!"b") n!"N")) [
          .update .add (.var n!"i") (.num 1)] [
          .expr (.call (.var n!"ReadAllFast") [(.var n!"count"), (.var n!"stream"), (.var n!"out")] false)],
        .assign [(.var n!"readSinkA")] (.var n!"out")])] false)]]

/-- `BenchmarkReadAllDeltaFast` -/
def rdTest_BenchmarkReadAllDeltaFast : Func where
  name := n!"BenchmarkReadAllDeltaFast"
  params := [(n!"b", (.ptr (.qual n!"testing" n!"B")))]
  results := []
  body := [
    .ite [] (.bin .eq (.call (.dot (.var n!"decode") n!"GetMode") [] false) (.dot (.var n!"shared") n!"Normal")) [
      .expr (.call (.dot (.var n!"b") n!"Skipf") [(.str [84, 101, 115, 116, 105, 110, 103, 32, 101, 110, 118, 105, 114, 111, 110, 109, 101, 110, 116, 32, 100, 111, 101, 115, 110, 39, 116, 32, 115, 117, 112, 112, 111, 114, 116, 32, 116, 104, 105, 115, 32, 116, 101, 115, 116])] false)] [],
    .loop [
      .define [n!"i"] (.num 0)] (.bin .lt (.var n!"i") (.num 8)) [
      .update .add (.var n!"i") (.num 1)] [
      .define [n!"count"] (.call (.var n!"int") [(.call (.dot (.var n!"math") n!"Pow10") [(.var n!"i")] false)] false),
      .define [n!"nums"] (.call (.dot (.var n!"util") n!"GenUint32") [(.var n!"count")] false),
      .expr (.call (.dot (.var n!"util") n!"SortUint32") [(.var n!"nums")] false),
      .define [n!"stream"] (.call (.dot (.var n!"writer") n!"WriteAllDeltaScalar") [(.var n!"nums"), (.num 0)] false),
      .define [n!"out"] (.call (.var n!"make") [(.type (.slice (.named n!"uint32"))), (.var n!"count")] false),
      .expr (.call (.dot (.var n!"b") n!"Run") [(.call (.dot (.var n!"fmt") n!"Sprintf") [(.str [67, 111, 117, 110, 116, 95, 49, 101, 37, 100]), (.var n!"i")] false), (.func [(n!"b", (.ptr (.qual n!"testing" n!"B")))] [] [
        .expr (.call (.dot (.var n!"b") n!"SetBytes") [(.call (.var n!"int64") [(.bin .mul (.var n!"count") (.dot (.var n!"encode") n!"MaxBytesPerNum"))] false)] false),
        .expr (.call (.dot (.var n!"b") n!"ResetTimer") [] false),
        .loop [
          .define [n!"i"] (.num 0)] (.bin .lt (.var n!"i") (.dot (.var n!"b") n!"N")) [
          .update .add (.var n!"i") (.num 1)] [
          .expr (.call (.var n!"ReadAllDeltaFast") [(.var n!"count"), (.var n!"stream"), (.var n!"out"), (.num 0)] false)],
        .assign [(.var n!"readSinkB")] (.var n!"out")])] false)]]

/-- `BenchmarkReadAllScalar` -/
def rdTest_BenchmarkReadAllScalar : Func where
  name := n!"BenchmarkReadAllScalar"
  params := [(n!"b", (.ptr (.qual n!"testing" n!"B")))]
  results := []
  body := [
    .loop [
      .define [n!"i"] (.num 0)] (.bin .lt (.var n!"i") (.num 8)) [
      .update .add (.var n!"i") (.num 1)] [
      .define [n!"count"] (.call (.var n!"int") [(.call (.dot (.var n!"math") n!"Pow10") [(.var n!"i")] false)] false),
      .define [n!"nums"] (.call (.dot (.var n!"util") n!"GenUint32") [(.var n!"count")] false),
      .expr (.call (.dot (.var n!"util") n!"SortUint32") [(.var n!"nums")] false),
      .define [n!"stream"] (.call (.dot (.var n!"writer") n!"WriteAllScalar") [(.var n!"nums")] false),
      .define [n!"out"] (.call (.var n!"make") [(.type (.slice (.named n!"uint32"))), (.var n!"count")] false),
      .expr (.call (.dot (.var n!"b") n!"Run") [(.call (.dot (.var n!"fmt") n!"Sprintf") [(.str [67, 111, 117, 110, 116, 95, 49, 101, 37, 100]), (.var n!"i")] false), (.func [(n!"b", (.ptr (.qual n!"testing" n!"B")))] [] [
        .expr (.call (.dot (.var n!"b") n!"SetBytes") [(.call (.var n!"int64") [(.bin .mul (.var n!"count") (.dot (.var n!"encode") n!"MaxBytesPerNum"))] false)] false),
        .expr (.call (.dot (.var n!"b") n!"ResetTimer") [] false),
        .loop [
          .define [n!"i"] (.num 0)] (.bin .lt (.var n!"i") (.dot (.var n!"b") n!"N")) [
          .update .add (.var n!"i") (.num 1)] [
          .expr (.call (.var n!"ReadAllScalar") [(.var n!"count"), (.var n!"stream"), (.var n!"out")] false)],
        .assign [(.var n!"readSinkC")] (.var n!"out")])] false)]]

/-- `BenchmarkReadAllDeltaScalar` -/
def rdTest_BenchmarkReadAllDeltaScalar : Func where
  name := n!"BenchmarkReadAllDeltaScalar"
  params := [(n!"b", (.ptr (.qual n!"testing" n!"B")))]
  results := []
  body := [
    .loop [
      .define [n!"i"] (.num 0)] (.bin .lt (.var n!"i") (.num 8)) [
      .update .add (.var n!"i") (.num 1)] [
      .define [n!"count"] (.call (.var n!"int") [(.call (.dot (.var n!"math") n!"Pow10") [(.var n!"i")] false)] false),
      .define [n!"nums"] (.call (.dot (.var n!"util") n!"GenUint32") [(.var n!"count")] false),
      .expr (.call (.dot (.var n!"util") n!"SortUint32") [(.var n!"nums")] false),
      .define [n!"stream"] (.call (.dot (.var n!"writer") n!"WriteAllDeltaScalar") [(.var n!"nums"), (.num 0)] false),
      .define [n!"out"] (.call (.var n!"make") [(.type (.slice (.named n!"uint32"))), (.var n!"count")] false),
      .expr (.call (.dot (.var n!"b") n!"Run") [(.call (.dot (.var n!"fmt") n!"Sprintf") [(.str [67, 111, 117, 110, 116, 95, 49, 101, 37, 100]), (.var n!"i")] false), (.func [(n!"b", (.ptr (.qual n!"testing" n!"B")))] [] [
        .expr (.call (.dot (.var n!"b") n!"SetBytes") [(.call (.var n!"int64") [(.bin .mul (.var n!"count") (.dot (.var n!"encode") n!"MaxBytesPerNum"))] false)] false),
        .expr (.call (.dot (.var n!"b") n!"ResetTimer") [] false),
        .loop [
          .define [n!"i"] (.num 0)] (.bin .lt (.var n!"i") (.dot (.var n!"b") n!"N")) [
          .update .add (.var n!"i") (.num 1)] [
          .expr (.call (.var n!"ReadAllDeltaScalar") [(.var n!"count"), (.var n!"stream"), (.var n!"out"), (.num 0)] false)],
        .assign [(.var n!"readSinkD")] (.var n!"out")])] false)]]

/-- `BenchmarkReadAllVarint` -/
def rdTest_BenchmarkReadAllVarint : Func where
  name := n!"BenchmarkReadAllVarint"
  params := [(n!"b", (.ptr (.qual n!"testing" n!"B")))]
  results := []
  body := [
    .loop [
      .define [n!"i"] (.num 0)] (.bin .lt (.var n!"i") (.num 8)) [
      .update .add (.var n!"i") (.num 1)] [
      .define [n!"count"] (.call (.var n!"int") [(.call (.dot (.var n!"math") n!"Pow10") [(.var n!"i")] false)] false),
      .define [n!"out"] (.call (.var n!"make") [(.type (.slice (.named n!"uint32"))), (.var n!"count")] false),
      .define [n!"data"] (.call (.var n!"make") [(.type (.slice (.named n!"byte"))), (.bin .mul (.dot (.var n!"binary") n!"MaxVarintLen32") (.var n!"count"))] false),
      .define [n!"nums"] (.call (.dot (.var n!"util") n!"GenUint32") [(.var n!"count")] false),
      .expr (.call (.dot (.var n!"util") n!"SortUint32") [(.var n!"nums")] false),
      .define [n!"written"] (.call (.dot (.var n!"util") n!"PutVarint") [(.var n!"nums"), (.var n!"data")] false),
      .assign [(.var n!"data")] (.slice (.var n!"data") none (some (.var n!"written"))),
      .expr (.call (.dot (.var n!"b") n!"Run") [(.call (.dot (.var n!"fmt") n!"Sprintf") [(.str [67, 111, 117, 110, 116, 95, 49, 101, 37, 100]), (.var n!"i")] false), (.func [(n!"b", (.ptr (.qual n!"testing" n!"B")))] [] [
        .expr (.call (.dot (.var n!"b") n!"SetBytes") [(.call (.var n!"int64") [(.bin .mul (.var n!"count") (.dot (.var n!"encode") n!"MaxBytesPerNum"))] false)] false),
        .expr (.call (.dot (.var n!"b") n!"ResetTimer") [] false),
        .loop [
          .define [n!"i"] (.num 0)] (.bin .lt (.var n!"i") (.dot (.var n!"b") n!"N")) [
          .update .add (.var n!"i") (.num 1)] [
          .expr (.call (.dot (.var n!"util") n!"GetVarint") [(.var n!"data"), (.var n!"out")] false)],
        .assign [(.var n!"readSinkB")] (.var n!"out")])] false)]]

/-- `BenchmarkReadAllDeltaVarint` -/
def rdTest_BenchmarkReadAllDeltaVarint : Func where
  name := n!"BenchmarkReadAllDeltaVarint"
  params := [(n!"b", (.ptr (.qual n!"testing" n!"B")))]
  results := []
  body := [
    .loop [
      .define [n!"i"] (.num 0)] (.bin .lt (.var n!"i") (.num 8)) [
      .update .add (.var n!"i") (.num 1)] [
      .define [n!"count"] (.call (.var n!"int") [(.call (.dot (.var n!"math") n!"Pow10") [(.var n!"i")] false)] false),
      .define [n!"out"] (.call (.var n!"make") [(.type (.slice (.named n!"uint32"))), (.var n!"count")] false),
      .define [n!"data"] (.call (.var n!"make") [(.type (.slice (.named n!"byte"))), (.bin .mul (.dot (.var n!"binary") n!"MaxVarintLen32") (.var n!"count"))] false),
      .define [n!"nums"] (.call (.dot (.var n!"util") n!"GenUint32") [(.var n!"count")] false),
      .expr (.call (.dot (.var n!"util") n!"SortUint32") [(.var n!"nums")] false),
      .define [n!"written"] (.call (.dot (.var n!"util") n!"PutDeltaVarint") [(.var n!"nums"), (.var n!"data"), (.num 0)] false),
      .assign [(.var n!"data")] (.slice (.var n!"data") none (some (.var n!"written"))),
      .expr (.call (.dot (.var n!"b") n!"Run") [(.call (.dot (.var n!"fmt") n!"Sprintf") [(.str [67, 111, 117, 110, 116, 95, 49, 101, 37, 100]), (.var n!"i")] false), (.func [(n!"b", (.ptr (.qual n!"testing" n!"B")))] [] [
        .expr (.call (.dot (.var n!"b") n!"SetBytes") [(.call (.var n!"int64") [(.bin .mul (.var n!"count") (.dot (.var n!"encode") n!"MaxBytesPerNum"))] false)] false),
        .expr (.call (.dot (.var n!"b") n!"ResetTimer") [] false),
        .loop [
          .define [n!"i"] (.num 0)] (.bin .lt (.var n!"i") (.dot (.var n!"b") n!"N")) [
          .update .add (.var n!"i") (.num 1)] [
          .expr (.call (.dot (.var n!"util") n!"GetDeltaVarint") [(.var n!"data"), (.var n!"out"), (.num 0)] false)],
        .assign [(.var n!"readSinkB")] (.var n!"out")])] false)]]

/-- `/repo/pkg/stream/reader/reader_test.go` -/
def rdTest : File where
  pkg := n!"reader"
  imports := [n!"encoding/binary", n!"fmt", n!"math", n!"math/rand", n!"reflect", n!"testing", n!"time", n!"github.com/theMPatel/streamvbyte-simdgo/pkg/decode", n!"github.com/theMPatel/streamvbyte-simdgo/pkg/encode", n!"github.com/theMPatel/streamvbyte-simdgo/pkg/shared", n!"github.com/theMPatel/streamvbyte-simdgo/pkg/stream/writer", n!"github.com/theMPatel/streamvbyte-simdgo/pkg/util"]
  dots := []
  types := []
  consts := []
  vars := [(n!"readSinkA", (.deref (.call (.var n!"new") [(.type (.slice (.named n!"uint32")))] false))), (n!"readSinkB", (.deref (.call (.var n!"new") [(.type (.slice (.named n!"uint32")))] false))), (n!"readSinkC", (.deref (.call (.var n!"new") [(.type (.slice (.named n!"uint32")))] false))), (n!"readSinkD", (.deref (.call (.var n!"new") [(.type (.slice (.named n!"uint32")))] false))), (n!"readSinkE", (.deref (.call (.var n!"new") [(.type (.slice (.named n!"uint32")))] false))), (n!"readSinkF", (.deref (.call (.var n!"new") [(.type (.slice (.named n!"uint32")))] false)))]
  funcs := [rdTest_init, rdTest_TestReadAllScalar, rdTest_TestReadAllDeltaScalar, rdTest_TestReadAllFast, rdTest_TestReadAllDeltaFast, rdTest_BenchmarkReadAllFast, rdTest_BenchmarkReadAllDeltaFast, rdTest_BenchmarkReadAllScalar, rdTest_BenchmarkReadAllDeltaScalar, rdTest_BenchmarkReadAllVarint, rdTest_BenchmarkReadAllDeltaVarint]

/-! ## `/repo/pkg/util/varint_test.go` -/

/-- `TestVarintRoundTrip` -/
def vintTest_TestVarintRoundTrip : Func where
  name := n!"TestVarintRoundTrip"
  params := [(n!"t", (.ptr (.qual n!"testing" n!"T")))]
  results := []
  body := [
    .define [n!"count"] (.num 8),
    .define [n!"nums"] (.call (.var n!"GenUint32") [(.var n!"count")] false),
    .define [n!"out"] (.call (.var n!"make") [(.type (.slice (.named n!"byte"))), (.bin .mul (.var n!"count") (.dot (.var n!"binary") n!"MaxVarintLen32"))] false),
    .define [n!"written"] (.call (.var n!"PutVarint") [(.var n!"nums"), (.var n!"out")] false),
    .assign [(.var n!"out")] (.slice (.var n!"out") none (some (.var n!"written"))),
    .define [n!"actual"] (.call (.var n!"make") [(.type (.slice (.named n!"uint32"))), (.var n!"count")] false),
    .define [n!"read"] (.call (.var n!"GetVarint") [(.var n!"out"), (.var n!"actual")] false),
    .ite [] (.bin .ne (.var n!"written") (.var n!"read")) [
      .expr (.call (.dot (.var n!"t") n!"Fatalf") [(.str [101, 120, 112, 101, 99, 116, 101, 100, 32, 116, 111, 32, 114, 101, 97, 100, 32, 37, 100, 44, 32, 103, 111, 116, 32, 37, 100]), (.var n!"written"), (.var n!"read")] false)] [],
    .ite [] (.call (.var n!"!") [(.call (.dot (.var n!"reflect") n!"DeepEqual") [(.var n!"nums"), (.var n!"actual")] false)] false) [
      .expr (.call (.dot (.var n!"t") n!"Fatalf") [(.str [101, 120, 112, 101, 99, 116, 101, 100, 32, 37, 43, 118, 44, 32, 103, 111, 116, 32, 37, 43, 118]), (.var n!"nums"), (.var n!"actual")] false)] []]

/-- `TestVarintDeltaRoundTrip` -/
def vintTest_TestVarintDeltaRoundTrip : Func where
  name := n!"TestVarintDeltaRoundTrip"
  params := [(n!"t", (.ptr (.qual n!"testing" n!"T")))]
  results := []
  body := [
    .define [n!"count"] (.num 8),
    .define [n!"nums"] (.call (.var n!"GenUint32") [(.var n!"count")] false),
    .expr (.call (.var n!"SortUint32") [(.var n!"nums")] false),
    .define [n!"out"] (.call (.var n!"make") [(.type (.slice (.named n!"byte"))), (.bin .mul (.var n!"count") (.dot (.var n!"binary") n!"MaxVarintLen32"))] false),
    .define [n!"written"] (.call (.var n!"PutDeltaVarint") [(.var n!"nums"), (.var n!"out"), (.num 0)] false),
    .assign [(.var n!"out")] (.slice (.var n!"out") none (some (.var n!"written"))),
    .define [n!"actual"] (.call (.var n!"make") [(.type (.slice (.named n!"uint32"))), (.var n!"count")] false),
    .define [n!"read"] (.call (.var n!"GetDeltaVarint") [(.var n!"out"), (.var n!"actual"), (.num 0)] false),
    .ite [] (.bin .ne (.var n!"written") (.var n!"read")) [
      .expr (.call (.dot (.var n!"t") n!"Fatalf") [(.str [101, 120, 112, 101, 99, 116, 101, 100, 32, 116, 111, 32, 114, 101, 97, 100, 32, 37, 100, 44, 32, 103, 111, 116, 32, 37, 100]), (.var n!"written"), (.var n!"read")] false)] [],
    .ite [] (.call (.var n!"!") [(.call (.dot (.var n!"reflect") n!"DeepEqual") [(.var n!"nums"), (.var n!"actual")] false)] false) [
      .expr (.call (.dot (.var n!"t") n!"Fatalf") [(.str [101, 120, 112, 101, 99, 116, 101, 100, 32, 37, 43, 118, 44, 32, 103, 111, 116, 32, 37, 43, 118]), (.var n!"nums"), (.var n!"actual")] false)] []]

/-- `/repo/pkg/util/varint_test.go` -/
def vintTest : File where
  pkg := n!"util"
  imports := [n!"encoding/binary", n!"reflect", n!"testing"]
  dots := []
  types := []
  consts := []
  vars := []
  funcs := [vintTest_TestVarintRoundTrip, vintTest_TestVarintDeltaRoundTrip]

end SVB.Tests.Files
