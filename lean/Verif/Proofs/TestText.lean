import Verif.Model.Tests
import Verif.Model.TestFiles
import Verif.Proofs.GoParse

/-! # The tests of `Tests.lean` are what the texts of the test files say -/

set_option autoImplicit false

namespace SVB.Tests
open SVB.Go

theorem roundTripScalar_text (W : World) (s : St) :
    test W Files.pkgTest n!"TestRoundTripScalar" s = (roundTripScalar).go s := by kernel_rfl

theorem put8Scalar_text (W : World) (s : St) :
    test W Files.encTest n!"TestPut8uint32Scalar" s = (put8Scalar).go s := by kernel_rfl

theorem put8DeltaScalar_text (W : World) (s : St) :
    test W Files.encTest n!"TestPut8uint32DeltaScalar" s = (put8DeltaScalar W).go s := by kernel_rfl

theorem put8Fast_text (W : World) (s : St) :
    test W Files.encTest n!"TestPut8uint32Fast" s = (put8Fast W).go s := by kernel_rfl

theorem put8DeltaFast_text (W : World) (s : St) :
    test W Files.encTest n!"TestPut8uint32DeltaFast" s = (put8DeltaFast W).go s := by kernel_rfl

theorem putScalar_text (W : World) (s : St) :
    test W Files.encTest n!"TestPutUint32Scalar" s = (putScalar W).go s := by kernel_rfl

theorem putDeltaScalar_text (W : World) (s : St) :
    test W Files.encTest n!"TestPutUint32DeltaScalar" s = (putDeltaScalar W).go s := by kernel_rfl

theorem get8Scalar_text (W : World) (s : St) :
    test W Files.decTest n!"TestGet8uint32Scalar" s = (get8Scalar W).go s := by kernel_rfl

theorem get8DeltaScalar_text (W : World) (s : St) :
    test W Files.decTest n!"TestGet8uint32DeltaScalar" s = (get8DeltaScalar W).go s := by kernel_rfl

theorem get8Fast_text (W : World) (s : St) :
    test W Files.decTest n!"TestGet8uint32Fast" s = (get8Fast W).go s := by kernel_rfl

theorem get8DeltaFast_text (W : World) (s : St) :
    test W Files.decTest n!"TestGet8uint32DeltaFast" s = (get8DeltaFast W).go s := by kernel_rfl

theorem getScalar_text (W : World) (s : St) :
    test W Files.decTest n!"TestGetUint32Scalar" s = (getScalar W).go s := by kernel_rfl

theorem getDeltaScalar_text (W : World) (s : St) :
    test W Files.decTest n!"TestGetUint32DeltaScalar" s = (getDeltaScalar W).go s := by kernel_rfl

theorem writeAllScalar_text (W : World) (s : St) :
    test W Files.wrTest n!"TestWriteAllScalar" s = (writeAllScalar W).go s := by kernel_rfl

theorem writeAllDeltaScalar_text (W : World) (s : St) :
    test W Files.wrTest n!"TestWriteAllDeltaScalar" s = (writeAllDeltaScalar W).go s := by kernel_rfl

theorem writeAllFast_text (W : World) (s : St) :
    test W Files.wrTest n!"TestWriteAllFast" s = (writeAllFast W).go s := by kernel_rfl

theorem writeAllDeltaFast_text (W : World) (s : St) :
    test W Files.wrTest n!"TestWriteAllDeltaFast" s = (writeAllDeltaFast W).go s := by kernel_rfl

theorem readAllScalar_text (W : World) (s : St) :
    test W Files.rdTest n!"TestReadAllScalar" s = (readAllScalar W).go s := by kernel_rfl

theorem readAllDeltaScalar_text (W : World) (s : St) :
    test W Files.rdTest n!"TestReadAllDeltaScalar" s = (readAllDeltaScalar W).go s := by kernel_rfl

theorem readAllFast_text (W : World) (s : St) :
    test W Files.rdTest n!"TestReadAllFast" s = (readAllFast W).go s := by kernel_rfl

theorem readAllDeltaFast_text (W : World) (s : St) :
    test W Files.rdTest n!"TestReadAllDeltaFast" s = (readAllDeltaFast W).go s := by kernel_rfl

theorem varintRoundTrip_text (W : World) (s : St) :
    test W Files.vintTest n!"TestVarintRoundTrip" s = (varintRoundTrip W).go s := by kernel_rfl

theorem varintDeltaRoundTrip_text (W : World) (s : St) :
    test W Files.vintTest n!"TestVarintDeltaRoundTrip" s = (varintDeltaRoundTrip W).go s := by kernel_rfl

end SVB.Tests
