import Verif.Model.Reader
import Verif.Model.Writer

/-!
# Model of the run-time selection of an implementation

`/repo/pkg/shared/mode.go`, the `GetMode` functions and `init` functions of `/repo/pkg/encode` and
`/repo/pkg/decode`, and the dispatching entry points.

The build target and the CPUID bits are one record `Cpu`; build tags (`// +build amd64`) become a test
of `amd64`.  On other targets the `…Fast` functions are the stubs of the `_base.go` files, which panic.
(As published, those files do not compile on other targets, see DESIGN.md; the model gives the missing
delta stubs the same body as the existing ones.)
-/

namespace SVB
open Asm

/-- Target architecture and the CPU features the code asks for (`cpu.X86.HasAVX`, `cpu.X86.HasAVX2`). -/
structure Cpu where
  amd64 : Bool
  avx : Bool
  avx2 : Bool
deriving DecidableEq, Repr

/-- `PerformanceMode`, `/repo/pkg/shared/mode.go:8-13`. -/
inductive Mode where
  | normal
  | fast
deriving DecidableEq, Repr

/-- `encode.GetMode`, `/repo/pkg/encode/encode_amd64.go:15-20` and `/repo/pkg/encode/encode_base.go:9-11`. -/
def encodeMode (c : Cpu) : Mode :=
  if c.amd64 then (if c.avx && c.avx2 then .fast else .normal) else .normal

/-- `decode.GetMode`, `/repo/pkg/decode/decode_amd64.go:15-20` and `/repo/pkg/decode/decode_base.go:9-11`. -/
def decodeMode (c : Cpu) : Mode :=
  if c.amd64 then (if c.avx then .fast else .normal) else .normal

/-- Body of the stubs in the `_base.go` files. -/
def stub {α : Type} : Prog α := .panic (.explicit "unreachable")

/-- A `…Fast` function as linked for the target: assembly-backed on amd64, the stub elsewhere. -/
def onAmd64 {α : Type} (c : Cpu) (p : Prog α) : Prog α := if c.amd64 then p else stub

/-- `Put8uint32` through `putImpl`, `/repo/pkg/encode/encode.go:21-29, 36-38`. -/
def put8uint32 (c : Cpu) (inn : U32s) (out : Bytes) : Prog U16 :=
  match encodeMode c with
  | .fast => onAmd64 c (put8uint32Fast inn out)
  | .normal => put8uint32Scalar inn out

/-- `Put8uint32Delta` through `putDeltaImpl`, `/repo/pkg/encode/encode.go:21-29, 45-47`. -/
def put8uint32Delta (c : Cpu) (inn : U32s) (out : Bytes) (prev : U32) : Prog U16 :=
  match encodeMode c with
  | .fast => onAmd64 c (put8uint32DeltaFast inn out prev)
  | .normal => put8uint32DeltaScalar inn out prev

/-- `Get8uint32` through `getImpl`, `/repo/pkg/decode/decode.go:15-23, 30-32`. -/
def get8uint32 (c : Cpu) (inn : Bytes) (out : U32s) (ctrl : U16) : Prog Unit :=
  match decodeMode c with
  | .fast => onAmd64 c (get8uint32Fast inn out ctrl)
  | .normal => get8uint32Scalar inn out ctrl

/-- `Get8uint32Delta` through `getDeltaImpl`, `/repo/pkg/decode/decode.go:15-23, 39-41`. -/
def get8uint32Delta (c : Cpu) (inn : Bytes) (out : U32s) (ctrl : U16) (prev : U32) : Prog Unit :=
  match decodeMode c with
  | .fast => onAmd64 c (get8uint32DeltaFast inn out ctrl prev)
  | .normal => get8uint32DeltaScalar inn out ctrl prev

/-- `WriteAll`, `/repo/pkg/stream/writer/writer.go:17-23`. -/
def writeAll (c : Cpu) (fresh : Block) (inn : U32s) : Prog Bytes :=
  match encodeMode c with
  | .fast => onAmd64 c (writeAllFast fresh inn)
  | .normal => writeAllScalar fresh inn

/-- `WriteAllDelta`, `/repo/pkg/stream/writer/writer.go:29-35`. -/
def writeAllDelta (c : Cpu) (fresh : Block) (inn : U32s) (prev : U32) : Prog Bytes :=
  match encodeMode c with
  | .fast => onAmd64 c (writeAllDeltaFast fresh inn prev)
  | .normal => writeAllDeltaScalar fresh inn prev

/-- `ReadAll`, `/repo/pkg/stream/reader/reader.go:20-26`. -/
def readAll (c : Cpu) (count : Int) (stream : Bytes) (out : U32s) : Prog Unit :=
  match decodeMode c with
  | .fast => onAmd64 c (readAllFast count stream out)
  | .normal => readAllScalar count stream out

/-- `ReadAllDelta`, `/repo/pkg/stream/reader/reader.go:36-42`. -/
def readAllDelta (c : Cpu) (count : Int) (stream : Bytes) (out : U32s) (prev : U32) : Prog Unit :=
  match decodeMode c with
  | .fast => onAmd64 c (readAllDeltaFast count stream out prev)
  | .normal => readAllDeltaScalar count stream out prev

/-- Instruction-set extension an instruction belongs to (Intel SDM vol. 2, "CPUID feature flag" of the
128-bit VEX form). -/
inductive Isa where
  | base
  | avx
  | avx2
deriving DecidableEq, Repr

/-- VEX.128 forms of SSE instructions are AVX; `VBROADCASTSS xmm, m32` is AVX; `VPBROADCASTW` is AVX2. -/
def Asm.Instr.isa : Instr → Isa
  | .MOVQ_arg .. | .MOVQ .. | .MOVWQZX_arg .. | .MOVWQZX .. | .MOVBQZX .. | .MOVBQZX_mem .. | .MOVW_ret ..
  | .SHLQ .. | .SHRQ .. | .ADDQ .. => .base
  | .VPBROADCASTW .. => .avx2
  | .VLDDQU .. | .VMOVDQU .. | .VBROADCASTSS_arg .. | .VPMINUB .. | .VPACKUSWB .. | .VPMINSW ..
  | .VPADDUSW .. | .VPMOVMSKB .. | .VPSHUFB .. | .VPALIGNR .. | .VPSUBD .. | .VPADDD .. | .VPSLLDQ ..
  | .VPSHUFD .. => .avx

/-- The CPU implements the extension (otherwise the instruction raises #UD). -/
def Cpu.supports (c : Cpu) : Isa → Bool
  | .base => c.amd64
  | .avx => c.amd64 && c.avx
  | .avx2 => c.amd64 && c.avx2

end SVB
