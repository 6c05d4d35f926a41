import Verif.Props.RoundTrip
import Verif.Proofs.GoProgram

/-!
# C56: the model is the meaning of the Go files

`goProgram c` is what the files of `/repo/pkg` that belong to a build for `c` parse to; `Started W` says that `W` runs that
program and that its variables are what its `init` functions store in them; `W.call depth pkg f args` is the meaning of a call.
The depth of calls is bounded by the first argument (six is enough for every function of the library, and any greater depth
gives the same) and the number of rounds of a loop by `W.fuel`, which may be any number that is large enough.
-/

set_option autoImplicit false

namespace SVB.Props
open Spec SVB.Go

/-- C56: every file parses, and together the files of a build are these syntax trees. -/
theorem C56_text (c : Cpu) : goProgram c = some (filesFor c) := goProgram_eq c

/-- C56: the `init` functions run to the end, in every build and on every CPU, and leave the implementations in the four
variables that `Dispatch.lean` assumes. -/
theorem C56_start (W : World) (h : goProgram W.cpu = some W.prog) :
    ∃ vars, initAll W 2 = .ret vars ∧
      vars [n!"encode", n!"putImpl"] = some (putChoice W.cpu) ∧
      vars [n!"encode", n!"putDeltaImpl"] = some (putDeltaChoice W.cpu) ∧
      vars [n!"decode", n!"getImpl"] = some (getChoice W.cpu) ∧
      vars [n!"decode", n!"getDeltaImpl"] = some (getDeltaChoice W.cpu) := by
  rw [goProgram_eq, Option.some.injEq] at h
  exact ⟨_, initAll_eq W h.symm 1, rfl, rfl, rfl, rfl⟩

/-- C56: so there is a started world for every CPU, any bound on loops and any allocator. -/
theorem C56_started (c : Cpu) (fuel : Nat) (fresh : Block) :
    ∃ W, Started W ∧ W.cpu = c ∧ W.fuel = fuel ∧ W.fresh = fresh :=
  ⟨_, started_mk c fuel fresh, rfl, rfl, rfl⟩

/-- A world to call functions in. -/
def exWorld : World := ⟨filesFor ⟨true, true, true⟩, ⟨true, true, true⟩, startVars ⟨true, true, true⟩, 100, .heap 7⟩

theorem exWorld_started : Started exWorld := started_mk _ _ _

variable {W : World}

/-- C56: `GetMode` of both packages. -/
theorem C56_encode_getMode (h : Started W) (d : Nat) :
    W.call (d + 6) n!"encode" n!"GetMode" [] = .ret [modeVal (encodeMode W.cpu)] :=
  call_encode_GetMode W h.prog (d + 5)

theorem C56_decode_getMode (h : Started W) (d : Nat) :
    W.call (d + 6) n!"decode" n!"GetMode" [] = .ret [modeVal (decodeMode W.cpu)] :=
  call_decode_GetMode W h.prog (d + 5)

/-! ### `pkg/shared/gen.go` -/

theorem C56_controlByteToSize (h : Started W) (d : Nat) (c : Byte) :
    W.call (d + 6) n!"shared" n!"ControlByteToSize" [.u8 c] =
      (controlByteToSize c).bind fun r => .ret [.int r] :=
  call_ControlByteToSize W h.prog (d + 5) c

theorem C56_controlByteToSizeTwo (h : Started W) (d : Nat) (c : U16) :
    W.call (d + 6) n!"shared" n!"ControlByteToSizeTwo" [.u16 c] =
      (controlByteToSizeTwo c).bind fun r => .ret [.int r] :=
  call_ControlByteToSizeTwo W h.prog (d + 5) c

/-! ### `pkg/encode` -/

theorem C56_encodeOne (h : Started W) (d : Nat) (num : U32) (out : Bytes) :
    W.call (d + 6) n!"encode" n!"encodeOne" [.u32 num, .bytes out] =
      (encodeOne num out).bind fun r => .ret [.int r] :=
  call_encodeOne W h.prog (d + 4) num out

theorem C56_put4uint32Scalar (h : Started W) (d : Nat) (inn : U32s) (out : Bytes) :
    W.call (d + 6) n!"encode" n!"Put4uint32Scalar" [.words inn, .bytes out] =
      (put4uint32Scalar inn out).bind fun r => .ret [.u8 r] :=
  call_Put4uint32Scalar W h.prog (d + 3) inn out

theorem C56_put8uint32Scalar (h : Started W) (d : Nat) (inn : U32s) (out : Bytes) :
    W.call (d + 6) n!"encode" n!"Put8uint32Scalar" [.words inn, .bytes out] =
      (put8uint32Scalar inn out).bind fun r => .ret [.u16 r] :=
  call_Put8uint32Scalar W h.prog (d + 2) inn out

theorem C56_putUint32Scalar (h : Started W) (d : Nat) (inn : U32s) (out : Bytes) (count : Int) (h4 : 4 ≤ W.fuel) :
    W.call (d + 6) n!"encode" n!"PutUint32Scalar" [.words inn, .bytes out, .int count] =
      (putUint32Scalar inn out count).bind fun r => .ret [.u8 r] :=
  call_PutUint32Scalar W h.prog (d + 3) inn out count h4

theorem C56_put8uint32Fast (h : Started W) (d : Nat) (inn : U32s) (out : Bytes) :
    W.call (d + 6) n!"encode" n!"Put8uint32Fast" [.words inn, .bytes out] =
      (onAmd64 W.cpu (put8uint32Fast inn out)).bind fun r => .ret [.u16 r] :=
  call_Put8uint32Fast W h.prog (d + 4) inn out

theorem C56_put8uint32 (h : Started W) (d : Nat) (inn : U32s) (out : Bytes) :
    W.call (d + 6) n!"encode" n!"Put8uint32" [.words inn, .bytes out] =
      (put8uint32 W.cpu inn out).bind fun r => .ret [.u16 r] :=
  call_Put8uint32 W h.prog (d + 1) inn out h.putImpl

theorem C56_put4uint32DeltaScalar (h : Started W) (d : Nat) (inn : U32s) (out : Bytes) (prev : U32) :
    W.call (d + 6) n!"encode" n!"Put4uint32DeltaScalar" [.words inn, .bytes out, .u32 prev] =
      (put4uint32DeltaScalar inn out prev).bind fun r => .ret [.u8 r] :=
  call_Put4uint32DeltaScalar W h.prog (d + 3) inn out prev

theorem C56_put8uint32DeltaScalar (h : Started W) (d : Nat) (inn : U32s) (out : Bytes) (prev : U32) :
    W.call (d + 6) n!"encode" n!"Put8uint32DeltaScalar" [.words inn, .bytes out, .u32 prev] =
      (put8uint32DeltaScalar inn out prev).bind fun r => .ret [.u16 r] :=
  call_Put8uint32DeltaScalar W h.prog (d + 2) inn out prev

theorem C56_putUint32DeltaScalar (h : Started W) (d : Nat) (inn : U32s) (out : Bytes) (count : Int) (prev : U32) (h4 : 4 ≤ W.fuel) :
    W.call (d + 6) n!"encode" n!"PutUint32DeltaScalar" [.words inn, .bytes out, .int count, .u32 prev] =
      (putUint32DeltaScalar inn out count prev).bind fun r => .ret [.u8 r] :=
  call_PutUint32DeltaScalar W h.prog (d + 3) inn out count prev h4

theorem C56_put8uint32DeltaFast (h : Started W) (d : Nat) (inn : U32s) (out : Bytes) (prev : U32) :
    W.call (d + 6) n!"encode" n!"Put8uint32DeltaFast" [.words inn, .bytes out, .u32 prev] =
      (onAmd64 W.cpu (put8uint32DeltaFast inn out prev)).bind fun r => .ret [.u16 r] :=
  call_Put8uint32DeltaFast W h.prog (d + 4) inn out prev

theorem C56_put8uint32Delta (h : Started W) (d : Nat) (inn : U32s) (out : Bytes) (prev : U32) :
    W.call (d + 6) n!"encode" n!"Put8uint32Delta" [.words inn, .bytes out, .u32 prev] =
      (put8uint32Delta W.cpu inn out prev).bind fun r => .ret [.u16 r] :=
  call_Put8uint32Delta W h.prog (d + 1) inn out prev h.putDeltaImpl

/-! ### `pkg/decode` -/

theorem C56_decodeOne (h : Started W) (d : Nat) (b : Bytes) (size : Byte) :
    W.call (d + 6) n!"decode" n!"decodeOne" [.bytes b, .u8 size] =
      (decodeOne b size).bind fun r => .ret [.u32 r] :=
  call_decodeOne W h.prog (d + 5) b size

theorem C56_get4uint32Scalar (h : Started W) (d : Nat) (inn : Bytes) (out : U32s) (ctrl : Byte) :
    W.call (d + 6) n!"decode" n!"Get4uint32Scalar" [.bytes inn, .words out, .u8 ctrl] =
      (get4uint32Scalar inn out ctrl).bind fun _ => .ret [] :=
  call_Get4uint32Scalar W h.prog (d + 4) inn out ctrl

theorem C56_get8uint32Scalar (h : Started W) (d : Nat) (inn : Bytes) (out : U32s) (ctrl : U16) :
    W.call (d + 6) n!"decode" n!"Get8uint32Scalar" [.bytes inn, .words out, .u16 ctrl] =
      (get8uint32Scalar inn out ctrl).bind fun _ => .ret [] :=
  call_Get8uint32Scalar W h.prog (d + 3) inn out ctrl

theorem C56_getUint32Scalar (h : Started W) (d : Nat) (inn : Bytes) (out : U32s) (ctrl : Byte) (count : Int) (h4 : 4 ≤ W.fuel) :
    W.call (d + 6) n!"decode" n!"GetUint32Scalar" [.bytes inn, .words out, .u8 ctrl, .int count] =
      (getUint32Scalar inn out ctrl count).bind fun r => .ret [.int r] :=
  call_GetUint32Scalar W h.prog (d + 4) inn out ctrl count h4

theorem C56_get8uint32Fast (h : Started W) (d : Nat) (inn : Bytes) (out : U32s) (ctrl : U16) :
    W.call (d + 6) n!"decode" n!"Get8uint32Fast" [.bytes inn, .words out, .u16 ctrl] =
      (onAmd64 W.cpu (get8uint32Fast inn out ctrl)).bind fun _ => .ret [] :=
  call_Get8uint32Fast W h.prog (d + 4) inn out ctrl

theorem C56_get8uint32 (h : Started W) (d : Nat) (inn : Bytes) (out : U32s) (ctrl : U16) :
    W.call (d + 6) n!"decode" n!"Get8uint32" [.bytes inn, .words out, .u16 ctrl] =
      (get8uint32 W.cpu inn out ctrl).bind fun _ => .ret [] :=
  call_Get8uint32 W h.prog (d + 2) inn out ctrl h.getImpl

theorem C56_get4uint32DeltaScalar (h : Started W) (d : Nat) (inn : Bytes) (out : U32s) (ctrl : Byte) (prev : U32) :
    W.call (d + 6) n!"decode" n!"Get4uint32DeltaScalar" [.bytes inn, .words out, .u8 ctrl, .u32 prev] =
      (get4uint32DeltaScalar inn out ctrl prev).bind fun _ => .ret [] :=
  call_Get4uint32DeltaScalar W h.prog (d + 4) inn out ctrl prev

theorem C56_get8uint32DeltaScalar (h : Started W) (d : Nat) (inn : Bytes) (out : U32s) (ctrl : U16) (prev : U32) :
    W.call (d + 6) n!"decode" n!"Get8uint32DeltaScalar" [.bytes inn, .words out, .u16 ctrl, .u32 prev] =
      (get8uint32DeltaScalar inn out ctrl prev).bind fun _ => .ret [] :=
  call_Get8uint32DeltaScalar W h.prog (d + 3) inn out ctrl prev

theorem C56_getUint32DeltaScalar (h : Started W) (d : Nat) (inn : Bytes) (out : U32s) (ctrl : Byte) (count : Int) (prev : U32) (h4 : 4 ≤ W.fuel) :
    W.call (d + 6) n!"decode" n!"GetUint32DeltaScalar" [.bytes inn, .words out, .u8 ctrl, .int count, .u32 prev] =
      (getUint32DeltaScalar inn out ctrl count prev).bind fun r => .ret [.int r] :=
  call_GetUint32DeltaScalar W h.prog (d + 4) inn out ctrl count prev h4

theorem C56_get8uint32DeltaFast (h : Started W) (d : Nat) (inn : Bytes) (out : U32s) (ctrl : U16) (prev : U32) :
    W.call (d + 6) n!"decode" n!"Get8uint32DeltaFast" [.bytes inn, .words out, .u16 ctrl, .u32 prev] =
      (onAmd64 W.cpu (get8uint32DeltaFast inn out ctrl prev)).bind fun _ => .ret [] :=
  call_Get8uint32DeltaFast W h.prog (d + 4) inn out ctrl prev

theorem C56_get8uint32Delta (h : Started W) (d : Nat) (inn : Bytes) (out : U32s) (ctrl : U16) (prev : U32) :
    W.call (d + 6) n!"decode" n!"Get8uint32Delta" [.bytes inn, .words out, .u16 ctrl, .u32 prev] =
      (get8uint32Delta W.cpu inn out ctrl prev).bind fun _ => .ret [] :=
  call_Get8uint32Delta W h.prog (d + 2) inn out ctrl prev h.getDeltaImpl

/-! ### `pkg/stream/writer` -/

theorem C56_writeAllScalar (h : Started W) (d : Nat) (inn : U32s) (hn : inn.len < 2 ^ 60) (hf : inn.len ≤ W.fuel)
    (h4 : 4 ≤ W.fuel) :
    W.call (d + 6) n!"writer" n!"WriteAllScalar" [.words inn] =
      (writeAllScalar W.fresh inn).bind fun r => .ret [.bytes r] :=
  call_WriteAllScalar W h.prog (d + 2) inn hn hf h4

theorem C56_writeAllFast (h : Started W) (d : Nat) (inn : U32s) (hn : inn.len < 2 ^ 60) (hf : inn.len ≤ W.fuel)
    (h4 : 4 ≤ W.fuel) :
    W.call (d + 6) n!"writer" n!"WriteAllFast" [.words inn] =
      (onAmd64 W.cpu (writeAllFast W.fresh inn)).bind fun r => .ret [.bytes r] :=
  call_WriteAllFast W h.prog (d + 2) inn hn hf h4

theorem C56_writeAll (h : Started W) (d : Nat) (inn : U32s) (hn : inn.len < 2 ^ 60) (hf : inn.len ≤ W.fuel)
    (h4 : 4 ≤ W.fuel) :
    W.call (d + 6) n!"writer" n!"WriteAll" [.words inn] =
      (writeAll W.cpu W.fresh inn).bind fun r => .ret [.bytes r] :=
  call_WriteAll W h.prog (d + 1) inn hn hf h4

theorem C56_writeAllDeltaScalar (h : Started W) (d : Nat) (inn : U32s) (prev : U32) (hn : inn.len < 2 ^ 60) (hf : inn.len ≤ W.fuel)
    (h4 : 4 ≤ W.fuel) :
    W.call (d + 6) n!"writer" n!"WriteAllDeltaScalar" [.words inn, .u32 prev] =
      (writeAllDeltaScalar W.fresh inn prev).bind fun r => .ret [.bytes r] :=
  call_WriteAllDeltaScalar W h.prog (d + 2) inn prev hn hf h4

theorem C56_writeAllDeltaFast (h : Started W) (d : Nat) (ha : W.cpu.amd64 = true) (inn : U32s) (prev : U32) (hn : inn.len < 2 ^ 60) (hf : inn.len ≤ W.fuel)
    (h4 : 4 ≤ W.fuel) :
    W.call (d + 6) n!"writer" n!"WriteAllDeltaFast" [.words inn, .u32 prev] =
      (writeAllDeltaFast W.fresh inn prev).bind fun r => .ret [.bytes r] :=
  amd64_WriteAllDeltaFast W h.prog ha (d + 2) inn prev hn hf h4

theorem C56_writeAllDelta (h : Started W) (d : Nat) (inn : U32s) (prev : U32) (hn : inn.len < 2 ^ 60) (hf : inn.len ≤ W.fuel)
    (h4 : 4 ≤ W.fuel) :
    W.call (d + 6) n!"writer" n!"WriteAllDelta" [.words inn, .u32 prev] =
      (writeAllDelta W.cpu W.fresh inn prev).bind fun r => .ret [.bytes r] :=
  call_WriteAllDelta W h.prog (d + 1) inn prev hn hf h4

/-! ### `pkg/stream/reader` -/

theorem C56_readAllScalar (h : Started W) (d : Nat) (count : Int) (stream : Bytes) (out : U32s) (hc1 : -2 ^ 63 ≤ count) (hc2 : count < 2 ^ 63)
    (hs1 : stream.len < 5 * 2 ^ 60) (hs2 : stream.cap < 5 * 2 ^ 60) (ho1 : out.len < 2 ^ 60) (ho2 : out.cap < 2 ^ 60)
    (hf : count < W.fuel) (h4 : 4 ≤ W.fuel) :
    W.call (d + 6) n!"reader" n!"ReadAllScalar" [.int count, .bytes stream, .words out] =
      (readAllScalar count stream out).bind fun _ => .ret [] :=
  call_ReadAllScalar W h.prog (d + 3) count stream out hc1 hc2 hs1 hs2 ho1 ho2 hf h4

theorem C56_readAllFast (h : Started W) (d : Nat) (count : Int) (stream : Bytes) (out : U32s) (hc1 : -2 ^ 63 ≤ count) (hc2 : count < 2 ^ 63)
    (hs1 : stream.len < 5 * 2 ^ 60) (hs2 : stream.cap < 5 * 2 ^ 60) (ho1 : out.len < 2 ^ 60) (ho2 : out.cap < 2 ^ 60)
    (hf : count < W.fuel) (h4 : 4 ≤ W.fuel) :
    W.call (d + 6) n!"reader" n!"ReadAllFast" [.int count, .bytes stream, .words out] =
      (onAmd64 W.cpu (readAllFast count stream out)).bind fun _ => .ret [] :=
  call_ReadAllFast W h.prog (d + 3) count stream out hc1 hc2 hs1 hs2 ho1 ho2 hf h4

theorem C56_readAll (h : Started W) (d : Nat) (count : Int) (stream : Bytes) (out : U32s) (hc1 : -2 ^ 63 ≤ count) (hc2 : count < 2 ^ 63)
    (hs1 : stream.len < 5 * 2 ^ 60) (hs2 : stream.cap < 5 * 2 ^ 60) (ho1 : out.len < 2 ^ 60) (ho2 : out.cap < 2 ^ 60)
    (hf : count < W.fuel) (h4 : 4 ≤ W.fuel) :
    W.call (d + 6) n!"reader" n!"ReadAll" [.int count, .bytes stream, .words out] =
      (readAll W.cpu count stream out).bind fun _ => .ret [] :=
  call_ReadAll W h.prog (d + 2) count stream out hc1 hc2 hs1 hs2 ho1 ho2 hf h4

theorem C56_readAllDeltaScalar (h : Started W) (d : Nat) (count : Int) (stream : Bytes) (out : U32s) (prev : U32) (hc1 : -2 ^ 63 ≤ count) (hc2 : count < 2 ^ 63)
    (hs1 : stream.len < 5 * 2 ^ 60) (hs2 : stream.cap < 5 * 2 ^ 60) (ho1 : out.len < 2 ^ 60) (ho2 : out.cap < 2 ^ 60)
    (hf : count < W.fuel) (h4 : 4 ≤ W.fuel) :
    W.call (d + 6) n!"reader" n!"ReadAllDeltaScalar" [.int count, .bytes stream, .words out, .u32 prev] =
      (readAllDeltaScalar count stream out prev).bind fun _ => .ret [] :=
  call_ReadAllDeltaScalar W h.prog (d + 3) count stream out prev hc1 hc2 hs1 hs2 ho1 ho2 hf h4

theorem C56_readAllDeltaFast (h : Started W) (d : Nat) (ha : W.cpu.amd64 = true) (count : Int) (stream : Bytes) (out : U32s) (prev : U32) (hc1 : -2 ^ 63 ≤ count) (hc2 : count < 2 ^ 63)
    (hs1 : stream.len < 5 * 2 ^ 60) (hs2 : stream.cap < 5 * 2 ^ 60) (ho1 : out.len < 2 ^ 60) (ho2 : out.cap < 2 ^ 60)
    (hf : count < W.fuel) (h4 : 4 ≤ W.fuel) :
    W.call (d + 6) n!"reader" n!"ReadAllDeltaFast" [.int count, .bytes stream, .words out, .u32 prev] =
      (readAllDeltaFast count stream out prev).bind fun _ => .ret [] :=
  amd64_ReadAllDeltaFast W h.prog ha (d + 3) count stream out prev hc1 hc2 hs1 hs2 ho1 ho2 hf h4

theorem C56_readAllDelta (h : Started W) (d : Nat) (count : Int) (stream : Bytes) (out : U32s) (prev : U32) (hc1 : -2 ^ 63 ≤ count) (hc2 : count < 2 ^ 63)
    (hs1 : stream.len < 5 * 2 ^ 60) (hs2 : stream.cap < 5 * 2 ^ 60) (ho1 : out.len < 2 ^ 60) (ho2 : out.cap < 2 ^ 60)
    (hf : count < W.fuel) (h4 : 4 ≤ W.fuel) :
    W.call (d + 6) n!"reader" n!"ReadAllDelta" [.int count, .bytes stream, .words out, .u32 prev] =
      (readAllDelta W.cpu count stream out prev).bind fun _ => .ret [] :=
  call_ReadAllDelta W h.prog (d + 2) count stream out prev hc1 hc2 hs1 hs2 ho1 ho2 hf h4

/-! ### `pkg/util` -/

theorem C56_putVarint (h : Started W) (d : Nat) (nums : U32s) (out : Bytes) :
    W.call (d + 6) n!"util" n!"PutVarint" [.words nums, .bytes out] =
      (putVarint nums out).bind fun r => .ret [.int r] :=
  call_PutVarint W h.prog (d + 4) nums out

theorem C56_getVarint (h : Started W) (d : Nat) (data : Bytes) (out : U32s) (ho : out.len < 2 ^ 60) (hf : out.len < W.fuel) :
    W.call (d + 6) n!"util" n!"GetVarint" [.bytes data, .words out] =
      (getVarint data out).bind fun r => .ret [.int r] :=
  call_GetVarint W h.prog (d + 4) data out ho hf

theorem C56_putDeltaVarint (h : Started W) (d : Nat) (nums : U32s) (out : Bytes) (prev : U32) :
    W.call (d + 6) n!"util" n!"PutDeltaVarint" [.words nums, .bytes out, .u32 prev] =
      (putDeltaVarint nums out prev).bind fun r => .ret [.int r] :=
  call_PutDeltaVarint W h.prog (d + 4) nums out prev

theorem C56_getDeltaVarint (h : Started W) (d : Nat) (data : Bytes) (out : U32s) (prev : U32) (ho : out.len < 2 ^ 60) (hf : out.len < W.fuel) :
    W.call (d + 6) n!"util" n!"GetDeltaVarint" [.bytes data, .words out, .u32 prev] =
      (getDeltaVarint data out prev).bind fun r => .ret [.int r] :=
  call_GetDeltaVarint W h.prog (d + 4) data out prev ho hf

theorem C56_delta (h : Started W) (d : Nat) (inn out : U32s) (hn : inn.len < 2 ^ 60) :
    W.call (d + 6) n!"util" n!"Delta" [.words inn, .words out] =
      (utilDelta inn out).bind fun _ => .ret [] :=
  call_Delta W h.prog (d + 5) inn out hn
/-! ### The properties of the texts themselves -/

/-- C56: calling `WriteAll` and then `ReadAll`, as the files define them, gives the numbers back. -/
theorem C56_roundtrip (h : Started W) (d : Nat) {inn out : U32s} {m : Mem} (hw : WriterPre W.fresh inn m) (ho : Valid out)
    (hne : out.blk ≠ W.fresh) (hroom : inn.len ≤ out.len) (hf : inn.len < W.fuel) (h4 : 4 ≤ W.fuel) :
    ∃ m', run (W.call (d + 6) n!"writer" n!"WriteAll" [.words inn] >>= fun vs =>
        W.call (d + 6) n!"reader" n!"ReadAll" ([.int inn.len] ++ vs ++ [.words out])) m = (.ok [], m') ∧
      wordsN m' out inn.len = wordsOf m inn := by
  obtain ⟨hl, -, hc⟩ := hw.valid
  have ho' := ho
  obtain ⟨ol, -, oc⟩ := ho'
  obtain ⟨m₁, e1, b1, f1, -⟩ := (write_result (.auto W.cpu) hw).ex
  obtain ⟨m', e, w⟩ := C05_roundtrip (.auto W.cpu) (.auto W.cpu) hw ho hne hroom
  refine ⟨m', ?_, w⟩
  have hs : (encode (wordsOf m inn)).length ≤ ctrlLen inn.len + 4 * inn.len := by
    have := (sum_bounds (wordsOf m inn)).2
    rw [encode_length_sum, wordsOf_length] at *; omega
  have hcl : ctrlLen inn.len ≤ inn.len := by unfold ctrlLen; omega
  simp only [Fn.write, Fn.read] at e e1
  rw [Prog.bind_eq, run_bind, e1] at e
  dsimp only at e
  rw [Prog.bind_eq, C56_writeAll h d inn (by omega) (by omega) h4, run_bind, run_bind, e1]
  simp only [run, List.cons_append, List.nil_append]
  rw [C56_readAll h d _ _ _ (by omega) (by omega) (by simp only; omega) (by simp only; omega) (by omega) (by omega)
    (by omega) h4, run_bind, e]
  rfl

/-- C56: the same for the delta pair. -/
theorem C56_roundtrip_delta (h : Started W) (d : Nat) {inn out : U32s} {m : Mem} (prev : U32) (hw : WriterPre W.fresh inn m)
    (ho : Valid out) (hne : out.blk ≠ W.fresh) (hroom : inn.len ≤ out.len) (hf : inn.len < W.fuel) (h4 : 4 ≤ W.fuel) :
    ∃ m', run (W.call (d + 6) n!"writer" n!"WriteAllDelta" [.words inn, .u32 prev] >>= fun vs =>
        W.call (d + 6) n!"reader" n!"ReadAllDelta" ([.int inn.len] ++ vs ++ [.words out, .u32 prev])) m = (.ok [], m') ∧
      wordsN m' out inn.len = wordsOf m inn := by
  obtain ⟨hl, -, hc⟩ := hw.valid
  have ho' := ho
  obtain ⟨ol, -, oc⟩ := ho'
  obtain ⟨m₁, e1, b1, f1, -⟩ := (writeDelta_result (.auto W.cpu) prev hw).ex
  obtain ⟨m', e, w⟩ := C06_roundtrip_delta (.auto W.cpu) (.auto W.cpu) prev hw ho hne hroom
  refine ⟨m', ?_, w⟩
  have hs : (encode (delta prev (wordsOf m inn))).length ≤ ctrlLen inn.len + 4 * inn.len := by
    have := (sum_bounds (delta prev (wordsOf m inn))).2
    rw [encode_length_sum, delta_length, wordsOf_length] at *; omega
  have hcl : ctrlLen inn.len ≤ inn.len := by unfold ctrlLen; omega
  simp only [Fn.writeDelta, Fn.readDelta] at e e1
  rw [Prog.bind_eq, run_bind, e1] at e
  dsimp only at e
  rw [Prog.bind_eq, C56_writeAllDelta h d inn prev (by omega) (by omega) h4, run_bind, run_bind, e1]
  simp only [run, List.cons_append, List.nil_append]
  rw [C56_readAllDelta h d _ _ _ prev (by omega) (by omega) (by simp only; omega) (by simp only; omega) (by omega) (by omega)
    (by omega) h4, run_bind, e]
  rfl

-- Seventeen numbers on an amd64 machine with the instructions.
example := C56_roundtrip exWorld_started 0 (out := ⟨.heap 3, 0, 17, 17⟩) exWriter ⟨by decide, rfl, by decide⟩ (by decide)
  (by decide) (by decide) (by decide)
example := C56_roundtrip_delta exWorld_started 0 (out := ⟨.heap 3, 0, 17, 17⟩) 12345 exWriter ⟨by decide, rfl, by decide⟩
  (by decide) (by decide) (by decide) (by decide)
example := C56_writeAll exWorld_started 0 exIn (by decide) (by decide) (by decide)
example := C56_readAll exWorld_started 0 17 ⟨.heap 1, 0, 22, 73⟩ ⟨.heap 3, 0, 17, 17⟩ (by decide) (by decide) (by decide)
  (by decide) (by decide) (by decide) (by decide) (by decide)
-- A count for which `count + 3` overflows.
example := C56_readAll exWorld_started 0 (-2 ^ 63) ⟨.heap 1, 0, 22, 73⟩ ⟨.heap 3, 0, 17, 17⟩ (by decide) (by decide) (by decide)
  (by decide) (by decide) (by decide) (by decide) (by decide)

end SVB.Props
