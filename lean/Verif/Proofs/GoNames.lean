import Verif.Proofs.GoAttr
import Verif.Proofs.GoBasics

/-!
# What the names in the Go files refer to

GENERATED by `/verif/scripts/gen_gonames.py` from `GoFiles.lean`.
-/

set_option autoImplicit false

namespace SVB.Go

@[go] theorem global_shared_ControlByteToSize (c : Cpu) (vars : List Nat → Option Val) :
    (filesFor c).global c vars [n!"shared", n!"ControlByteToSize"] = some (.fn n!"shared" n!"ControlByteToSize") := by
  unfold filesFor; cases c.amd64 <;> rfl
theorem func_shared_ControlByteToSize (c : Cpu) : (filesFor c).func n!"shared" n!"ControlByteToSize" = some Files.gen_ControlByteToSize := by
  unfold filesFor; cases c.amd64 <;> rfl
@[go] theorem global_shared_ControlByteToSizeTwo (c : Cpu) (vars : List Nat → Option Val) :
    (filesFor c).global c vars [n!"shared", n!"ControlByteToSizeTwo"] = some (.fn n!"shared" n!"ControlByteToSizeTwo") := by
  unfold filesFor; cases c.amd64 <;> rfl
theorem func_shared_ControlByteToSizeTwo (c : Cpu) : (filesFor c).func n!"shared" n!"ControlByteToSizeTwo" = some Files.gen_ControlByteToSizeTwo := by
  unfold filesFor; cases c.amd64 <;> rfl
@[go] theorem global_shared_Normal (c : Cpu) (vars : List Nat → Option Val) :
    (filesFor c).global c vars [n!"shared", n!"Normal"] = some (.int 0) := by
  unfold filesFor; cases c.amd64 <;> rfl
@[go] theorem global_shared_Fast (c : Cpu) (vars : List Nat → Option Val) :
    (filesFor c).global c vars [n!"shared", n!"Fast"] = some (.int 1) := by
  unfold filesFor; cases c.amd64 <;> rfl
@[go] theorem global_encode_MaxBytesPerNum (c : Cpu) (vars : List Nat → Option Val) :
    (filesFor c).global c vars [n!"encode", n!"MaxBytesPerNum"] = some (.const 4) := by
  unfold filesFor; cases c.amd64 <;> rfl
@[go] theorem global_encode_putImpl (c : Cpu) (vars : List Nat → Option Val) :
    (filesFor c).global c vars [n!"encode", n!"putImpl"] = vars [n!"encode", n!"putImpl"] := by
  unfold filesFor; cases c.amd64 <;> rfl
@[go] theorem global_encode_putDeltaImpl (c : Cpu) (vars : List Nat → Option Val) :
    (filesFor c).global c vars [n!"encode", n!"putDeltaImpl"] = vars [n!"encode", n!"putDeltaImpl"] := by
  unfold filesFor; cases c.amd64 <;> rfl
theorem func_encode_init (c : Cpu) : (filesFor c).func n!"encode" n!"init" = some Files.enc_init := by
  unfold filesFor; cases c.amd64 <;> rfl
@[go] theorem global_encode_Put8uint32 (c : Cpu) (vars : List Nat → Option Val) :
    (filesFor c).global c vars [n!"encode", n!"Put8uint32"] = some (.fn n!"encode" n!"Put8uint32") := by
  unfold filesFor; cases c.amd64 <;> rfl
theorem func_encode_Put8uint32 (c : Cpu) : (filesFor c).func n!"encode" n!"Put8uint32" = some Files.enc_Put8uint32 := by
  unfold filesFor; cases c.amd64 <;> rfl
@[go] theorem global_encode_Put8uint32Delta (c : Cpu) (vars : List Nat → Option Val) :
    (filesFor c).global c vars [n!"encode", n!"Put8uint32Delta"] = some (.fn n!"encode" n!"Put8uint32Delta") := by
  unfold filesFor; cases c.amd64 <;> rfl
theorem func_encode_Put8uint32Delta (c : Cpu) : (filesFor c).func n!"encode" n!"Put8uint32Delta" = some Files.enc_Put8uint32Delta := by
  unfold filesFor; cases c.amd64 <;> rfl
@[go] theorem global_encode_PutUint32Scalar (c : Cpu) (vars : List Nat → Option Val) :
    (filesFor c).global c vars [n!"encode", n!"PutUint32Scalar"] = some (.fn n!"encode" n!"PutUint32Scalar") := by
  unfold filesFor; cases c.amd64 <;> rfl
theorem func_encode_PutUint32Scalar (c : Cpu) : (filesFor c).func n!"encode" n!"PutUint32Scalar" = some Files.enc_PutUint32Scalar := by
  unfold filesFor; cases c.amd64 <;> rfl
@[go] theorem global_encode_PutUint32DeltaScalar (c : Cpu) (vars : List Nat → Option Val) :
    (filesFor c).global c vars [n!"encode", n!"PutUint32DeltaScalar"] = some (.fn n!"encode" n!"PutUint32DeltaScalar") := by
  unfold filesFor; cases c.amd64 <;> rfl
theorem func_encode_PutUint32DeltaScalar (c : Cpu) : (filesFor c).func n!"encode" n!"PutUint32DeltaScalar" = some Files.enc_PutUint32DeltaScalar := by
  unfold filesFor; cases c.amd64 <;> rfl
@[go] theorem global_encode_Put8uint32Scalar (c : Cpu) (vars : List Nat → Option Val) :
    (filesFor c).global c vars [n!"encode", n!"Put8uint32Scalar"] = some (.fn n!"encode" n!"Put8uint32Scalar") := by
  unfold filesFor; cases c.amd64 <;> rfl
theorem func_encode_Put8uint32Scalar (c : Cpu) : (filesFor c).func n!"encode" n!"Put8uint32Scalar" = some Files.enc_Put8uint32Scalar := by
  unfold filesFor; cases c.amd64 <;> rfl
@[go] theorem global_encode_Put4uint32Scalar (c : Cpu) (vars : List Nat → Option Val) :
    (filesFor c).global c vars [n!"encode", n!"Put4uint32Scalar"] = some (.fn n!"encode" n!"Put4uint32Scalar") := by
  unfold filesFor; cases c.amd64 <;> rfl
theorem func_encode_Put4uint32Scalar (c : Cpu) : (filesFor c).func n!"encode" n!"Put4uint32Scalar" = some Files.enc_Put4uint32Scalar := by
  unfold filesFor; cases c.amd64 <;> rfl
@[go] theorem global_encode_Put8uint32DeltaScalar (c : Cpu) (vars : List Nat → Option Val) :
    (filesFor c).global c vars [n!"encode", n!"Put8uint32DeltaScalar"] = some (.fn n!"encode" n!"Put8uint32DeltaScalar") := by
  unfold filesFor; cases c.amd64 <;> rfl
theorem func_encode_Put8uint32DeltaScalar (c : Cpu) : (filesFor c).func n!"encode" n!"Put8uint32DeltaScalar" = some Files.enc_Put8uint32DeltaScalar := by
  unfold filesFor; cases c.amd64 <;> rfl
@[go] theorem global_encode_Put4uint32DeltaScalar (c : Cpu) (vars : List Nat → Option Val) :
    (filesFor c).global c vars [n!"encode", n!"Put4uint32DeltaScalar"] = some (.fn n!"encode" n!"Put4uint32DeltaScalar") := by
  unfold filesFor; cases c.amd64 <;> rfl
theorem func_encode_Put4uint32DeltaScalar (c : Cpu) : (filesFor c).func n!"encode" n!"Put4uint32DeltaScalar" = some Files.enc_Put4uint32DeltaScalar := by
  unfold filesFor; cases c.amd64 <;> rfl
@[go] theorem global_encode_encodeOne (c : Cpu) (vars : List Nat → Option Val) :
    (filesFor c).global c vars [n!"encode", n!"encodeOne"] = some (.fn n!"encode" n!"encodeOne") := by
  unfold filesFor; cases c.amd64 <;> rfl
theorem func_encode_encodeOne (c : Cpu) : (filesFor c).func n!"encode" n!"encodeOne" = some Files.enc_encodeOne := by
  unfold filesFor; cases c.amd64 <;> rfl
@[go] theorem global_encode_max (c : Cpu) (vars : List Nat → Option Val) :
    (filesFor c).global c vars [n!"encode", n!"max"] = some (.fn n!"encode" n!"max") := by
  unfold filesFor; cases c.amd64 <;> rfl
theorem func_encode_max (c : Cpu) : (filesFor c).func n!"encode" n!"max" = some Files.enc_max := by
  unfold filesFor; cases c.amd64 <;> rfl
@[go] theorem global_decode_getImpl (c : Cpu) (vars : List Nat → Option Val) :
    (filesFor c).global c vars [n!"decode", n!"getImpl"] = vars [n!"decode", n!"getImpl"] := by
  unfold filesFor; cases c.amd64 <;> rfl
@[go] theorem global_decode_getDeltaImpl (c : Cpu) (vars : List Nat → Option Val) :
    (filesFor c).global c vars [n!"decode", n!"getDeltaImpl"] = vars [n!"decode", n!"getDeltaImpl"] := by
  unfold filesFor; cases c.amd64 <;> rfl
theorem func_decode_init (c : Cpu) : (filesFor c).func n!"decode" n!"init" = some Files.dec_init := by
  unfold filesFor; cases c.amd64 <;> rfl
@[go] theorem global_decode_Get8uint32 (c : Cpu) (vars : List Nat → Option Val) :
    (filesFor c).global c vars [n!"decode", n!"Get8uint32"] = some (.fn n!"decode" n!"Get8uint32") := by
  unfold filesFor; cases c.amd64 <;> rfl
theorem func_decode_Get8uint32 (c : Cpu) : (filesFor c).func n!"decode" n!"Get8uint32" = some Files.dec_Get8uint32 := by
  unfold filesFor; cases c.amd64 <;> rfl
@[go] theorem global_decode_Get8uint32Delta (c : Cpu) (vars : List Nat → Option Val) :
    (filesFor c).global c vars [n!"decode", n!"Get8uint32Delta"] = some (.fn n!"decode" n!"Get8uint32Delta") := by
  unfold filesFor; cases c.amd64 <;> rfl
theorem func_decode_Get8uint32Delta (c : Cpu) : (filesFor c).func n!"decode" n!"Get8uint32Delta" = some Files.dec_Get8uint32Delta := by
  unfold filesFor; cases c.amd64 <;> rfl
@[go] theorem global_decode_Get8uint32Scalar (c : Cpu) (vars : List Nat → Option Val) :
    (filesFor c).global c vars [n!"decode", n!"Get8uint32Scalar"] = some (.fn n!"decode" n!"Get8uint32Scalar") := by
  unfold filesFor; cases c.amd64 <;> rfl
theorem func_decode_Get8uint32Scalar (c : Cpu) : (filesFor c).func n!"decode" n!"Get8uint32Scalar" = some Files.dec_Get8uint32Scalar := by
  unfold filesFor; cases c.amd64 <;> rfl
@[go] theorem global_decode_Get4uint32Scalar (c : Cpu) (vars : List Nat → Option Val) :
    (filesFor c).global c vars [n!"decode", n!"Get4uint32Scalar"] = some (.fn n!"decode" n!"Get4uint32Scalar") := by
  unfold filesFor; cases c.amd64 <;> rfl
theorem func_decode_Get4uint32Scalar (c : Cpu) : (filesFor c).func n!"decode" n!"Get4uint32Scalar" = some Files.dec_Get4uint32Scalar := by
  unfold filesFor; cases c.amd64 <;> rfl
@[go] theorem global_decode_GetUint32Scalar (c : Cpu) (vars : List Nat → Option Val) :
    (filesFor c).global c vars [n!"decode", n!"GetUint32Scalar"] = some (.fn n!"decode" n!"GetUint32Scalar") := by
  unfold filesFor; cases c.amd64 <;> rfl
theorem func_decode_GetUint32Scalar (c : Cpu) : (filesFor c).func n!"decode" n!"GetUint32Scalar" = some Files.dec_GetUint32Scalar := by
  unfold filesFor; cases c.amd64 <;> rfl
@[go] theorem global_decode_GetUint32DeltaScalar (c : Cpu) (vars : List Nat → Option Val) :
    (filesFor c).global c vars [n!"decode", n!"GetUint32DeltaScalar"] = some (.fn n!"decode" n!"GetUint32DeltaScalar") := by
  unfold filesFor; cases c.amd64 <;> rfl
theorem func_decode_GetUint32DeltaScalar (c : Cpu) : (filesFor c).func n!"decode" n!"GetUint32DeltaScalar" = some Files.dec_GetUint32DeltaScalar := by
  unfold filesFor; cases c.amd64 <;> rfl
@[go] theorem global_decode_Get8uint32DeltaScalar (c : Cpu) (vars : List Nat → Option Val) :
    (filesFor c).global c vars [n!"decode", n!"Get8uint32DeltaScalar"] = some (.fn n!"decode" n!"Get8uint32DeltaScalar") := by
  unfold filesFor; cases c.amd64 <;> rfl
theorem func_decode_Get8uint32DeltaScalar (c : Cpu) : (filesFor c).func n!"decode" n!"Get8uint32DeltaScalar" = some Files.dec_Get8uint32DeltaScalar := by
  unfold filesFor; cases c.amd64 <;> rfl
@[go] theorem global_decode_Get4uint32DeltaScalar (c : Cpu) (vars : List Nat → Option Val) :
    (filesFor c).global c vars [n!"decode", n!"Get4uint32DeltaScalar"] = some (.fn n!"decode" n!"Get4uint32DeltaScalar") := by
  unfold filesFor; cases c.amd64 <;> rfl
theorem func_decode_Get4uint32DeltaScalar (c : Cpu) : (filesFor c).func n!"decode" n!"Get4uint32DeltaScalar" = some Files.dec_Get4uint32DeltaScalar := by
  unfold filesFor; cases c.amd64 <;> rfl
@[go] theorem global_decode_decodeOne (c : Cpu) (vars : List Nat → Option Val) :
    (filesFor c).global c vars [n!"decode", n!"decodeOne"] = some (.fn n!"decode" n!"decodeOne") := by
  unfold filesFor; cases c.amd64 <;> rfl
theorem func_decode_decodeOne (c : Cpu) : (filesFor c).func n!"decode" n!"decodeOne" = some Files.dec_decodeOne := by
  unfold filesFor; cases c.amd64 <;> rfl
@[go] theorem global_writer_jump (c : Cpu) (vars : List Nat → Option Val) :
    (filesFor c).global c vars [n!"writer", n!"jump"] = some (.const 16) := by
  unfold filesFor; cases c.amd64 <;> rfl
@[go] theorem global_writer_jumpCtrl (c : Cpu) (vars : List Nat → Option Val) :
    (filesFor c).global c vars [n!"writer", n!"jumpCtrl"] = some (.const 4) := by
  unfold filesFor; cases c.amd64 <;> rfl
@[go] theorem global_writer_WriteAll (c : Cpu) (vars : List Nat → Option Val) :
    (filesFor c).global c vars [n!"writer", n!"WriteAll"] = some (.fn n!"writer" n!"WriteAll") := by
  unfold filesFor; cases c.amd64 <;> rfl
theorem func_writer_WriteAll (c : Cpu) : (filesFor c).func n!"writer" n!"WriteAll" = some Files.wr_WriteAll := by
  unfold filesFor; cases c.amd64 <;> rfl
@[go] theorem global_writer_WriteAllDelta (c : Cpu) (vars : List Nat → Option Val) :
    (filesFor c).global c vars [n!"writer", n!"WriteAllDelta"] = some (.fn n!"writer" n!"WriteAllDelta") := by
  unfold filesFor; cases c.amd64 <;> rfl
theorem func_writer_WriteAllDelta (c : Cpu) : (filesFor c).func n!"writer" n!"WriteAllDelta" = some Files.wr_WriteAllDelta := by
  unfold filesFor; cases c.amd64 <;> rfl
@[go] theorem global_writer_WriteAllScalar (c : Cpu) (vars : List Nat → Option Val) :
    (filesFor c).global c vars [n!"writer", n!"WriteAllScalar"] = some (.fn n!"writer" n!"WriteAllScalar") := by
  unfold filesFor; cases c.amd64 <;> rfl
theorem func_writer_WriteAllScalar (c : Cpu) : (filesFor c).func n!"writer" n!"WriteAllScalar" = some Files.wr_WriteAllScalar := by
  unfold filesFor; cases c.amd64 <;> rfl
@[go] theorem global_writer_WriteAllDeltaScalar (c : Cpu) (vars : List Nat → Option Val) :
    (filesFor c).global c vars [n!"writer", n!"WriteAllDeltaScalar"] = some (.fn n!"writer" n!"WriteAllDeltaScalar") := by
  unfold filesFor; cases c.amd64 <;> rfl
theorem func_writer_WriteAllDeltaScalar (c : Cpu) : (filesFor c).func n!"writer" n!"WriteAllDeltaScalar" = some Files.wr_WriteAllDeltaScalar := by
  unfold filesFor; cases c.amd64 <;> rfl
@[go] theorem global_reader_jump (c : Cpu) (vars : List Nat → Option Val) :
    (filesFor c).global c vars [n!"reader", n!"jump"] = some (.const 16) := by
  unfold filesFor; cases c.amd64 <;> rfl
@[go] theorem global_reader_jumpCtrl (c : Cpu) (vars : List Nat → Option Val) :
    (filesFor c).global c vars [n!"reader", n!"jumpCtrl"] = some (.const 4) := by
  unfold filesFor; cases c.amd64 <;> rfl
@[go] theorem global_reader_ReadAll (c : Cpu) (vars : List Nat → Option Val) :
    (filesFor c).global c vars [n!"reader", n!"ReadAll"] = some (.fn n!"reader" n!"ReadAll") := by
  unfold filesFor; cases c.amd64 <;> rfl
theorem func_reader_ReadAll (c : Cpu) : (filesFor c).func n!"reader" n!"ReadAll" = some Files.rd_ReadAll := by
  unfold filesFor; cases c.amd64 <;> rfl
@[go] theorem global_reader_ReadAllDelta (c : Cpu) (vars : List Nat → Option Val) :
    (filesFor c).global c vars [n!"reader", n!"ReadAllDelta"] = some (.fn n!"reader" n!"ReadAllDelta") := by
  unfold filesFor; cases c.amd64 <;> rfl
theorem func_reader_ReadAllDelta (c : Cpu) : (filesFor c).func n!"reader" n!"ReadAllDelta" = some Files.rd_ReadAllDelta := by
  unfold filesFor; cases c.amd64 <;> rfl
@[go] theorem global_reader_ReadAllScalar (c : Cpu) (vars : List Nat → Option Val) :
    (filesFor c).global c vars [n!"reader", n!"ReadAllScalar"] = some (.fn n!"reader" n!"ReadAllScalar") := by
  unfold filesFor; cases c.amd64 <;> rfl
theorem func_reader_ReadAllScalar (c : Cpu) : (filesFor c).func n!"reader" n!"ReadAllScalar" = some Files.rd_ReadAllScalar := by
  unfold filesFor; cases c.amd64 <;> rfl
@[go] theorem global_reader_ReadAllDeltaScalar (c : Cpu) (vars : List Nat → Option Val) :
    (filesFor c).global c vars [n!"reader", n!"ReadAllDeltaScalar"] = some (.fn n!"reader" n!"ReadAllDeltaScalar") := by
  unfold filesFor; cases c.amd64 <;> rfl
theorem func_reader_ReadAllDeltaScalar (c : Cpu) : (filesFor c).func n!"reader" n!"ReadAllDeltaScalar" = some Files.rd_ReadAllDeltaScalar := by
  unfold filesFor; cases c.amd64 <;> rfl
@[go] theorem global_util_PutVarint (c : Cpu) (vars : List Nat → Option Val) :
    (filesFor c).global c vars [n!"util", n!"PutVarint"] = some (.fn n!"util" n!"PutVarint") := by
  unfold filesFor; cases c.amd64 <;> rfl
theorem func_util_PutVarint (c : Cpu) : (filesFor c).func n!"util" n!"PutVarint" = some Files.vint_PutVarint := by
  unfold filesFor; cases c.amd64 <;> rfl
@[go] theorem global_util_GetVarint (c : Cpu) (vars : List Nat → Option Val) :
    (filesFor c).global c vars [n!"util", n!"GetVarint"] = some (.fn n!"util" n!"GetVarint") := by
  unfold filesFor; cases c.amd64 <;> rfl
theorem func_util_GetVarint (c : Cpu) : (filesFor c).func n!"util" n!"GetVarint" = some Files.vint_GetVarint := by
  unfold filesFor; cases c.amd64 <;> rfl
@[go] theorem global_util_PutDeltaVarint (c : Cpu) (vars : List Nat → Option Val) :
    (filesFor c).global c vars [n!"util", n!"PutDeltaVarint"] = some (.fn n!"util" n!"PutDeltaVarint") := by
  unfold filesFor; cases c.amd64 <;> rfl
theorem func_util_PutDeltaVarint (c : Cpu) : (filesFor c).func n!"util" n!"PutDeltaVarint" = some Files.vint_PutDeltaVarint := by
  unfold filesFor; cases c.amd64 <;> rfl
@[go] theorem global_util_GetDeltaVarint (c : Cpu) (vars : List Nat → Option Val) :
    (filesFor c).global c vars [n!"util", n!"GetDeltaVarint"] = some (.fn n!"util" n!"GetDeltaVarint") := by
  unfold filesFor; cases c.amd64 <;> rfl
theorem func_util_GetDeltaVarint (c : Cpu) : (filesFor c).func n!"util" n!"GetDeltaVarint" = some Files.vint_GetDeltaVarint := by
  unfold filesFor; cases c.amd64 <;> rfl
@[go] theorem global_util_SilentClose (c : Cpu) (vars : List Nat → Option Val) :
    (filesFor c).global c vars [n!"util", n!"SilentClose"] = some (.fn n!"util" n!"SilentClose") := by
  unfold filesFor; cases c.amd64 <;> rfl
theorem func_util_SilentClose (c : Cpu) : (filesFor c).func n!"util" n!"SilentClose" = some Files.util_SilentClose := by
  unfold filesFor; cases c.amd64 <;> rfl
@[go] theorem global_util_GenUint32 (c : Cpu) (vars : List Nat → Option Val) :
    (filesFor c).global c vars [n!"util", n!"GenUint32"] = some (.fn n!"util" n!"GenUint32") := by
  unfold filesFor; cases c.amd64 <;> rfl
theorem func_util_GenUint32 (c : Cpu) : (filesFor c).func n!"util" n!"GenUint32" = some Files.util_GenUint32 := by
  unfold filesFor; cases c.amd64 <;> rfl
@[go] theorem global_util_SortUint32 (c : Cpu) (vars : List Nat → Option Val) :
    (filesFor c).global c vars [n!"util", n!"SortUint32"] = some (.fn n!"util" n!"SortUint32") := by
  unfold filesFor; cases c.amd64 <;> rfl
theorem func_util_SortUint32 (c : Cpu) : (filesFor c).func n!"util" n!"SortUint32" = some Files.util_SortUint32 := by
  unfold filesFor; cases c.amd64 <;> rfl
@[go] theorem global_util_Delta (c : Cpu) (vars : List Nat → Option Val) :
    (filesFor c).global c vars [n!"util", n!"Delta"] = some (.fn n!"util" n!"Delta") := by
  unfold filesFor; cases c.amd64 <;> rfl
theorem func_util_Delta (c : Cpu) : (filesFor c).func n!"util" n!"Delta" = some Files.util_Delta := by
  unfold filesFor; cases c.amd64 <;> rfl
@[go] theorem global_shared_int (c : Cpu) (vars : List Nat → Option Val) :
    (filesFor c).global c vars [n!"shared", n!"int"] = none := by
  unfold filesFor; cases c.amd64 <;> rfl
@[go] theorem global_encode_uint8 (c : Cpu) (vars : List Nat → Option Val) :
    (filesFor c).global c vars [n!"encode", n!"uint8"] = none := by
  unfold filesFor; cases c.amd64 <;> rfl
@[go] theorem global_encode_byte (c : Cpu) (vars : List Nat → Option Val) :
    (filesFor c).global c vars [n!"encode", n!"byte"] = none := by
  unfold filesFor; cases c.amd64 <;> rfl
@[go] theorem global_encode_uint16 (c : Cpu) (vars : List Nat → Option Val) :
    (filesFor c).global c vars [n!"encode", n!"uint16"] = none := by
  unfold filesFor; cases c.amd64 <;> rfl
@[go] theorem global_encode_panic (c : Cpu) (vars : List Nat → Option Val) :
    (filesFor c).global c vars [n!"encode", n!"panic"] = none := by
  unfold filesFor; cases c.amd64 <;> rfl
@[go] theorem global_decode_uint8 (c : Cpu) (vars : List Nat → Option Val) :
    (filesFor c).global c vars [n!"decode", n!"uint8"] = none := by
  unfold filesFor; cases c.amd64 <;> rfl
@[go] theorem global_decode_int (c : Cpu) (vars : List Nat → Option Val) :
    (filesFor c).global c vars [n!"decode", n!"int"] = none := by
  unfold filesFor; cases c.amd64 <;> rfl
@[go] theorem global_decode_uint32 (c : Cpu) (vars : List Nat → Option Val) :
    (filesFor c).global c vars [n!"decode", n!"uint32"] = none := by
  unfold filesFor; cases c.amd64 <;> rfl
@[go] theorem global_decode_panic (c : Cpu) (vars : List Nat → Option Val) :
    (filesFor c).global c vars [n!"decode", n!"panic"] = none := by
  unfold filesFor; cases c.amd64 <;> rfl
@[go] theorem global_writer_len (c : Cpu) (vars : List Nat → Option Val) :
    (filesFor c).global c vars [n!"writer", n!"len"] = none := by
  unfold filesFor; cases c.amd64 <;> rfl
@[go] theorem global_writer_make (c : Cpu) (vars : List Nat → Option Val) :
    (filesFor c).global c vars [n!"writer", n!"make"] = none := by
  unfold filesFor; cases c.amd64 <;> rfl
@[go] theorem global_writer_uint8 (c : Cpu) (vars : List Nat → Option Val) :
    (filesFor c).global c vars [n!"writer", n!"uint8"] = none := by
  unfold filesFor; cases c.amd64 <;> rfl
@[go] theorem global_writer_panic (c : Cpu) (vars : List Nat → Option Val) :
    (filesFor c).global c vars [n!"writer", n!"panic"] = none := by
  unfold filesFor; cases c.amd64 <;> rfl
@[go] theorem global_reader_uint16 (c : Cpu) (vars : List Nat → Option Val) :
    (filesFor c).global c vars [n!"reader", n!"uint16"] = none := by
  unfold filesFor; cases c.amd64 <;> rfl
@[go] theorem global_reader_panic (c : Cpu) (vars : List Nat → Option Val) :
    (filesFor c).global c vars [n!"reader", n!"panic"] = none := by
  unfold filesFor; cases c.amd64 <;> rfl
@[go] theorem global_util_len (c : Cpu) (vars : List Nat → Option Val) :
    (filesFor c).global c vars [n!"util", n!"len"] = none := by
  unfold filesFor; cases c.amd64 <;> rfl
@[go] theorem global_util_uint32 (c : Cpu) (vars : List Nat → Option Val) :
    (filesFor c).global c vars [n!"util", n!"uint32"] = none := by
  unfold filesFor; cases c.amd64 <;> rfl
@[go] theorem global_util_uint64 (c : Cpu) (vars : List Nat → Option Val) :
    (filesFor c).global c vars [n!"util", n!"uint64"] = none := by
  unfold filesFor; cases c.amd64 <;> rfl
@[go] theorem global_shared_PerControlLenTable (c : Cpu) (vars : List Nat → Option Val) :
    (filesFor c).global c vars [n!"shared", n!"PerControlLenTable"] = some (.table .ctrlLen [256]) := by
  unfold filesFor; cases c.amd64 <;> rfl
@[go] theorem global_shared_PerNumLenTable (c : Cpu) (vars : List Nat → Option Val) :
    (filesFor c).global c vars [n!"shared", n!"PerNumLenTable"] = some (.table .numLen [256, 4]) := by
  unfold filesFor; cases c.amd64 <;> rfl
@[go] theorem global_shared_EncodeShuffleTable (c : Cpu) (vars : List Nat → Option Val) :
    (filesFor c).global c vars [n!"shared", n!"EncodeShuffleTable"] = some (.table .encShuf [256, 16]) := by
  unfold filesFor; cases c.amd64 <;> rfl
@[go] theorem global_shared_DecodeShuffleTable (c : Cpu) (vars : List Nat → Option Val) :
    (filesFor c).global c vars [n!"shared", n!"DecodeShuffleTable"] = some (.table .decShuf [256, 16]) := by
  unfold filesFor; cases c.amd64 <;> rfl
@[go] theorem global_cpu_HasAVX (c : Cpu) (vars : List Nat → Option Val) :
    (filesFor c).global c vars [n!"cpu", n!"X86", n!"HasAVX"] = some (.bool c.avx) := rfl
@[go] theorem global_cpu_HasAVX2 (c : Cpu) (vars : List Nat → Option Val) :
    (filesFor c).global c vars [n!"cpu", n!"X86", n!"HasAVX2"] = some (.bool c.avx2) := rfl

/-! ## Only in a build for amd64 -/

theorem amd64_encode_GetMode (c : Cpu) (h : c.amd64 = true) :
    (filesFor c).func n!"encode" n!"GetMode" = some Files.encAmd64_GetMode := by
  unfold filesFor; rw [h]; rfl
@[go] theorem global_encode_GetMode (c : Cpu) (vars : List Nat → Option Val) :
    (filesFor c).global c vars [n!"encode", n!"GetMode"] = some (.fn n!"encode" n!"GetMode") := by
  unfold filesFor; cases c.amd64 <;> rfl
theorem amd64_encode_Put8uint32Fast (c : Cpu) (h : c.amd64 = true) :
    (filesFor c).func n!"encode" n!"Put8uint32Fast" = some Files.encAmd64_Put8uint32Fast := by
  unfold filesFor; rw [h]; rfl
@[go] theorem global_encode_Put8uint32Fast (c : Cpu) (vars : List Nat → Option Val) :
    (filesFor c).global c vars [n!"encode", n!"Put8uint32Fast"] = some (.fn n!"encode" n!"Put8uint32Fast") := by
  unfold filesFor; cases c.amd64 <;> rfl
theorem amd64_encode_Put8uint32DeltaFast (c : Cpu) (h : c.amd64 = true) :
    (filesFor c).func n!"encode" n!"Put8uint32DeltaFast" = some Files.encAmd64_Put8uint32DeltaFast := by
  unfold filesFor; rw [h]; rfl
@[go] theorem global_encode_Put8uint32DeltaFast (c : Cpu) (vars : List Nat → Option Val) :
    (filesFor c).global c vars [n!"encode", n!"Put8uint32DeltaFast"] = some (.fn n!"encode" n!"Put8uint32DeltaFast") := by
  unfold filesFor; cases c.amd64 <;> rfl
theorem amd64_encode_Put8uint32FastAsm (c : Cpu) (h : c.amd64 = true) :
    (filesFor c).func n!"encode" n!"Put8uint32FastAsm" = some Files.encAmd64_Put8uint32FastAsm := by
  unfold filesFor; rw [h]; rfl
theorem amd64_global_encode_Put8uint32FastAsm (c : Cpu) (vars : List Nat → Option Val) (h : c.amd64 = true) :
    (filesFor c).global c vars [n!"encode", n!"Put8uint32FastAsm"] = some (.fn n!"encode" n!"Put8uint32FastAsm") := by
  unfold filesFor; rw [h]; rfl
theorem amd64_encode_Put8uint32DeltaFastAsm (c : Cpu) (h : c.amd64 = true) :
    (filesFor c).func n!"encode" n!"Put8uint32DeltaFastAsm" = some Files.encAmd64_Put8uint32DeltaFastAsm := by
  unfold filesFor; rw [h]; rfl
theorem amd64_global_encode_Put8uint32DeltaFastAsm (c : Cpu) (vars : List Nat → Option Val) (h : c.amd64 = true) :
    (filesFor c).global c vars [n!"encode", n!"Put8uint32DeltaFastAsm"] = some (.fn n!"encode" n!"Put8uint32DeltaFastAsm") := by
  unfold filesFor; rw [h]; rfl
theorem amd64_decode_GetMode (c : Cpu) (h : c.amd64 = true) :
    (filesFor c).func n!"decode" n!"GetMode" = some Files.decAmd64_GetMode := by
  unfold filesFor; rw [h]; rfl
@[go] theorem global_decode_GetMode (c : Cpu) (vars : List Nat → Option Val) :
    (filesFor c).global c vars [n!"decode", n!"GetMode"] = some (.fn n!"decode" n!"GetMode") := by
  unfold filesFor; cases c.amd64 <;> rfl
theorem amd64_decode_Get8uint32Fast (c : Cpu) (h : c.amd64 = true) :
    (filesFor c).func n!"decode" n!"Get8uint32Fast" = some Files.decAmd64_Get8uint32Fast := by
  unfold filesFor; rw [h]; rfl
@[go] theorem global_decode_Get8uint32Fast (c : Cpu) (vars : List Nat → Option Val) :
    (filesFor c).global c vars [n!"decode", n!"Get8uint32Fast"] = some (.fn n!"decode" n!"Get8uint32Fast") := by
  unfold filesFor; cases c.amd64 <;> rfl
theorem amd64_decode_Get8uint32DeltaFast (c : Cpu) (h : c.amd64 = true) :
    (filesFor c).func n!"decode" n!"Get8uint32DeltaFast" = some Files.decAmd64_Get8uint32DeltaFast := by
  unfold filesFor; rw [h]; rfl
@[go] theorem global_decode_Get8uint32DeltaFast (c : Cpu) (vars : List Nat → Option Val) :
    (filesFor c).global c vars [n!"decode", n!"Get8uint32DeltaFast"] = some (.fn n!"decode" n!"Get8uint32DeltaFast") := by
  unfold filesFor; cases c.amd64 <;> rfl
theorem amd64_decode_Get8uint32FastAsm (c : Cpu) (h : c.amd64 = true) :
    (filesFor c).func n!"decode" n!"Get8uint32FastAsm" = some Files.decAmd64_Get8uint32FastAsm := by
  unfold filesFor; rw [h]; rfl
theorem amd64_global_decode_Get8uint32FastAsm (c : Cpu) (vars : List Nat → Option Val) (h : c.amd64 = true) :
    (filesFor c).global c vars [n!"decode", n!"Get8uint32FastAsm"] = some (.fn n!"decode" n!"Get8uint32FastAsm") := by
  unfold filesFor; rw [h]; rfl
theorem amd64_decode_Get8uint32DeltaFastAsm (c : Cpu) (h : c.amd64 = true) :
    (filesFor c).func n!"decode" n!"Get8uint32DeltaFastAsm" = some Files.decAmd64_Get8uint32DeltaFastAsm := by
  unfold filesFor; rw [h]; rfl
theorem amd64_global_decode_Get8uint32DeltaFastAsm (c : Cpu) (vars : List Nat → Option Val) (h : c.amd64 = true) :
    (filesFor c).global c vars [n!"decode", n!"Get8uint32DeltaFastAsm"] = some (.fn n!"decode" n!"Get8uint32DeltaFastAsm") := by
  unfold filesFor; rw [h]; rfl
theorem amd64_writer_WriteAllFast (c : Cpu) (h : c.amd64 = true) :
    (filesFor c).func n!"writer" n!"WriteAllFast" = some Files.wrAmd64_WriteAllFast := by
  unfold filesFor; rw [h]; rfl
@[go] theorem global_writer_WriteAllFast (c : Cpu) (vars : List Nat → Option Val) :
    (filesFor c).global c vars [n!"writer", n!"WriteAllFast"] = some (.fn n!"writer" n!"WriteAllFast") := by
  unfold filesFor; cases c.amd64 <;> rfl
theorem amd64_writer_WriteAllDeltaFast (c : Cpu) (h : c.amd64 = true) :
    (filesFor c).func n!"writer" n!"WriteAllDeltaFast" = some Files.wrAmd64_WriteAllDeltaFast := by
  unfold filesFor; rw [h]; rfl
theorem amd64_global_writer_WriteAllDeltaFast (c : Cpu) (vars : List Nat → Option Val) (h : c.amd64 = true) :
    (filesFor c).global c vars [n!"writer", n!"WriteAllDeltaFast"] = some (.fn n!"writer" n!"WriteAllDeltaFast") := by
  unfold filesFor; rw [h]; rfl
theorem amd64_reader_ReadAllFast (c : Cpu) (h : c.amd64 = true) :
    (filesFor c).func n!"reader" n!"ReadAllFast" = some Files.rdAmd64_ReadAllFast := by
  unfold filesFor; rw [h]; rfl
@[go] theorem global_reader_ReadAllFast (c : Cpu) (vars : List Nat → Option Val) :
    (filesFor c).global c vars [n!"reader", n!"ReadAllFast"] = some (.fn n!"reader" n!"ReadAllFast") := by
  unfold filesFor; cases c.amd64 <;> rfl
theorem amd64_reader_ReadAllDeltaFast (c : Cpu) (h : c.amd64 = true) :
    (filesFor c).func n!"reader" n!"ReadAllDeltaFast" = some Files.rdAmd64_ReadAllDeltaFast := by
  unfold filesFor; rw [h]; rfl
theorem amd64_global_reader_ReadAllDeltaFast (c : Cpu) (vars : List Nat → Option Val) (h : c.amd64 = true) :
    (filesFor c).global c vars [n!"reader", n!"ReadAllDeltaFast"] = some (.fn n!"reader" n!"ReadAllDeltaFast") := by
  unfold filesFor; rw [h]; rfl

/-! ## Only in a build for another target -/

theorem other_encode_GetMode (c : Cpu) (h : c.amd64 = false) :
    (filesFor c).func n!"encode" n!"GetMode" = some Files.encBase_GetMode := by
  unfold filesFor; rw [h]; rfl
theorem other_encode_Put8uint32Fast (c : Cpu) (h : c.amd64 = false) :
    (filesFor c).func n!"encode" n!"Put8uint32Fast" = some Files.encBase_Put8uint32Fast := by
  unfold filesFor; rw [h]; rfl
theorem other_encode_Put8uint32DeltaFast (c : Cpu) (h : c.amd64 = false) :
    (filesFor c).func n!"encode" n!"Put8uint32DeltaFast" = some Files.encBase_Put8uint32DeltaFast := by
  unfold filesFor; rw [h]; rfl
theorem other_decode_GetMode (c : Cpu) (h : c.amd64 = false) :
    (filesFor c).func n!"decode" n!"GetMode" = some Files.decBase_GetMode := by
  unfold filesFor; rw [h]; rfl
theorem other_decode_Get8uint32Fast (c : Cpu) (h : c.amd64 = false) :
    (filesFor c).func n!"decode" n!"Get8uint32Fast" = some Files.decBase_Get8uint32Fast := by
  unfold filesFor; rw [h]; rfl
theorem other_decode_Get8uint32DeltaFast (c : Cpu) (h : c.amd64 = false) :
    (filesFor c).func n!"decode" n!"Get8uint32DeltaFast" = some Files.decBase_Get8uint32DeltaFast := by
  unfold filesFor; rw [h]; rfl
theorem other_writer_WriteAllFast (c : Cpu) (h : c.amd64 = false) :
    (filesFor c).func n!"writer" n!"WriteAllFast" = some Files.wrBase_WriteAllFast := by
  unfold filesFor; rw [h]; rfl
theorem other_reader_ReadAllFast (c : Cpu) (h : c.amd64 = false) :
    (filesFor c).func n!"reader" n!"ReadAllFast" = some Files.rdBase_ReadAllFast := by
  unfold filesFor; rw [h]; rfl

/-! ## The standard library is not part of the program -/

theorem none_bits_LeadingZeros32 (c : Cpu) : (filesFor c).func n!"bits" n!"LeadingZeros32" = none := by
  unfold filesFor; cases c.amd64 <;> rfl
theorem none_binary_PutUvarint (c : Cpu) : (filesFor c).func n!"binary" n!"PutUvarint" = none := by
  unfold filesFor; cases c.amd64 <;> rfl
theorem none_binary_Uvarint (c : Cpu) : (filesFor c).func n!"binary" n!"Uvarint" = none := by
  unfold filesFor; cases c.amd64 <;> rfl

end SVB.Go
