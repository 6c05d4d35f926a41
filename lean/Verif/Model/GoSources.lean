/-!
# The texts of the hand-written Go files of `/repo/pkg`

GENERATED by `/verif/scripts/gen_gosources.py`, in the format of `Sources.lean`: one number per line of the file, its bytes
followed by two bytes for the line number, read as a big-endian number.  `Verif.Model.GoText` reads them.
-/
set_option autoImplicit false
set_option maxRecDepth 100000

namespace SVB.Sources

/-- `/repo/pkg/shared/gen.go`. -/
def genGo : List Nat := [
  0x7061636b616765207368617265640001,  -- package shared
  0x0002,
  0x2f2f676f3a67656e657261746520676f2072756e202e2f6d61696e2f67656e7461626c65732e676f202d6f7574202e2f7461626c65732e676f202d7061636b616765207368617265640003,
  0x0004,
  0x66756e6320436f6e74726f6c42797465546f53697a6528696e2075696e74382920696e74207b0005,  -- func ControlByteToSize(in uint8) int {
  0x0972657475726e20696e7428506572436f6e74726f6c4c656e5461626c655b696e5d290006,  -- return int(PerControlLenTable[in])
  0x7d0007,  -- }
  0x0008,
  0x66756e6320436f6e74726f6c42797465546f53697a6554776f28696e2075696e7431362920696e74207b0009,  -- func ControlByteToSizeTwo(in uint16) int {
  0x0972657475726e20696e7428506572436f6e74726f6c4c656e5461626c655b696e26307866665d202b20506572436f6e74726f6c4c656e5461626c655b696e3e3e385d29000a,  -- return int(PerControlLenTable[in&0xff] + PerControlLenTable[in>>8])
  0x7d000b]  -- }

/-- `/repo/pkg/shared/mode.go`. -/
def modeGo : List Nat := [
  0x7061636b616765207368617265640001,  -- package shared
  0x0002,
  0x2f2f20506572666f726d616e63654d6f646520696e64696361746573207768696368206d6f64652074686520636f6465206973206f7065726174696e6720756e6465722e204966204e6f726d616c2c0003,
  0x2f2f207468656e2074686520636f6465206973204e4f54207573696e67207370656369616c20686172647761726520696e737472756374696f6e7320616e6420696e73746561642072656c79696e670004,
  0x2f2f206f6e20706f727461626c6520476f20636f64652e20496620466173742c207468656e2074686520636f6465204953207573696e67207370656369616c20686172647761726520696e737472756374696f6e730005,
  0x2f2f207468617420697320706c6174666f726d20646570656e64656e742e2045616368207061636b616765206578706f72747320612066756e6320746861742063616e206265207573656420746f2064656275670006,
  0x2f2f206f7220696e73706563742074686520636f6e66696775726174696f6e2061742072756e74696d652e0007,
  0x7479706520506572666f726d616e63654d6f646520696e740008,  -- type PerformanceMode int
  0x0009,
  0x636f6e73742028000a,  -- const (
  0x094e6f726d616c20506572666f726d616e63654d6f6465203d20696f7461000b,  -- Normal PerformanceMode = iota
  0x0946617374000c,  -- Fast
  0x29000d,  -- )
  0x000e,
  0x7479706520436865636b4d6f64652066756e63282920506572666f726d616e63654d6f6465000f]  -- type CheckMode func() PerformanceMode

/-- `/repo/pkg/encode/encode.go`. -/
def encodeMainGo : List Nat := [
  0x7061636b61676520656e636f64650001,  -- package encode
  0x0002,
  0x696d706f727420280003,  -- import (
  0x09226d6174682f62697473220004,  -- "math/bits"
  0x0005,
  0x09226769746875622e636f6d2f7468654d506174656c2f73747265616d76627974652d73696d64676f2f706b672f736861726564220006,  -- "github.com/theMPatel/streamvbyte-simdgo/pkg/shared"
  0x290007,  -- )
  0x0008,
  0x636f6e737420280009,  -- const (
  0x094d617842797465735065724e756d203d2034000a,  -- MaxBytesPerNum = 4
  0x29000b,  -- )
  0x000c,
  0x7661722028000d,  -- var (
  0x09707574496d706c20202020202050757438496d706c000e,  -- putImpl      Put8Impl
  0x0970757444656c7461496d706c205075743844656c7461496d706c000f,  -- putDeltaImpl Put8DeltaImpl
  0x290010,  -- )
  0x0011,
  0x747970652050757438496d706c2066756e6328696e205b5d75696e7433322c206f7574205b5d627974652920286374726c2075696e743136290012,  -- type Put8Impl func(in []uint32, out []byte) (ctrl uint16)
  0x74797065205075743844656c7461496d706c2066756e6328696e205b5d75696e7433322c206f7574205b5d627974652c20707265762075696e7433322920286374726c2075696e743136290013,  -- type Put8DeltaImpl func(in []uint32, out []byte, prev uint32) (ctrl uint16)
  0x0014,
  0x66756e6320696e69742829207b0015,  -- func init() {
  0x096966204765744d6f64652829203d3d207368617265642e46617374207b0016,  -- if GetMode() == shared.Fast {
  0x0909707574496d706c203d205075743875696e743332466173740017,  -- putImpl = Put8uint32Fast
  0x090970757444656c7461496d706c203d205075743875696e74333244656c7461466173740018,  -- putDeltaImpl = Put8uint32DeltaFast
  0x097d20656c7365207b0019,  -- } else {
  0x0909707574496d706c203d205075743875696e7433325363616c6172001a,  -- putImpl = Put8uint32Scalar
  0x090970757444656c7461496d706c203d205075743875696e74333244656c74615363616c6172001b,  -- putDeltaImpl = Put8uint32DeltaScalar
  0x097d001c,  -- }
  0x7d001d,  -- }
  0x001e,
  0x2f2f205075743875696e74333220697320612067656e6572616c2066756e6320796f752063616e2075736520746f20656e636f646520382075696e743332277320617420612074696d652e001f,
  0x2f2f2049742077696c6c2075736520746865206661737465737420696d706c656d656e746174696f6e20617661696c61626c652064657465726d696e656420647572696e670020,
  0x2f2f207061636b61676520696e697469616c697a6174696f6e2e20496620796f75722043505520737570706f727473207370656369616c20686172647761726520696e737472756374696f6e730021,
  0x2f2f207468656e2069742077696c6c2075736520616e20616363656c6572617465642076657273696f6e206f662053747265616d2056427974652e204f74686572776973652c207468650022,
  0x2f2f207363616c617220696d706c656d656e746174696f6e2077696c6c2062652075736564206173207468652066616c6c6261636b2e0023,
  0x66756e63205075743875696e74333228696e205b5d75696e7433322c206f7574205b5d62797465292075696e743136207b0024,  -- func Put8uint32(in []uint32, out []byte) uint16 {
  0x0972657475726e20707574496d706c28696e2c206f7574290025,  -- return putImpl(in, out)
  0x7d0026,  -- }
  0x0027,
  0x2f2f205075743875696e74333244656c746120697320612067656e6572616c2066756e6320796f752063616e2075736520746f20656e636f6465203820646966666572656e7469616c6c7920636f6465640028,
  0x2f2f2075696e7433322773207769746820617420612074696d652e2049742077696c6c2075736520746865206661737465737420696d706c656d656e746174696f6e20617661696c61626c650029,
  0x2f2f2064657465726d696e656420647572696e67207061636b61676520696e697469616c697a6174696f6e2e20496620796f75722043505520737570706f727473207370656369616c206861726477617265002a,
  0x2f2f20696e737472756374696f6e73207468656e2069742077696c6c2075736520616e20616363656c6572617465642076657273696f6e206f662053747265616d2056427974652e204f74686572776973652c002b,
  0x2f2f20746865207363616c617220696d706c656d656e746174696f6e2077696c6c2062652075736564206173207468652066616c6c6261636b2e002c,
  0x66756e63205075743875696e74333244656c746128696e205b5d75696e7433322c206f7574205b5d627974652c20707265762075696e743332292075696e743136207b002d,  -- func Put8uint32Delta(in []uint32, out []byte, prev uint32) uint16 {
  0x0972657475726e2070757444656c7461496d706c28696e2c206f75742c207072657629002e,  -- return putDeltaImpl(in, out, prev)
  0x7d002f,  -- }
  0x0030,
  0x2f2f2050757455696e7433325363616c617220656e636f64657320757020746f203420696e7465676572732066726f6d20696e20696e746f206f7574207573696e67207468650031,
  0x2f2f2053747265616d20564279746520666f726d61742e0032,
  0x2f2f0033,
  0x2f2f204e6f74653a20497420697320796f757220726573706f6e736962696c69747920746f20656e7375726520746861742074686520696e636f6d696e6720736c6963657320686176650034,
  0x2f2f2074686520617070726f7072696174652073697a657320616e642064617461206f746865727769736520746869732066756e632077696c6c2070616e69632e0035,
  0x66756e632050757455696e7433325363616c617228696e205b5d75696e7433322c206f7574205b5d627974652c20636f756e7420696e74292075696e7438207b0036,  -- func PutUint32Scalar(in []uint32, out []byte, count int) uint8 {
  0x09696620636f756e74203d3d2030207b0037,  -- if count == 0 {
  0x090972657475726e20300038,  -- return 0
  0x097d0039,  -- }
  0x003a,
  0x09696620636f756e74203e2034207b003b,  -- if count > 4 {
  0x0909636f756e74203d2034003c,  -- count = 4
  0x097d003d,  -- }
  0x003e,
  0x097661722028003f,  -- var (
  0x09096374726c202075696e74380040,  -- ctrl  uint8
  0x09097368696674203d20300041,  -- shift = 0
  0x0909746f74616c203d20300042,  -- total = 0
  0x09290043,  -- )
  0x09666f722069203a3d20303b2069203c20636f756e743b20692b2b207b0044,  -- for i := 0; i < count; i++ {
  0x090973697a65203a3d20656e636f64654f6e6528696e5b695d2c206f75745b746f74616c3a5d290045,  -- size := encodeOne(in[i], out[total:])
  0x0909746f74616c202b3d2073697a650046,  -- total += size
  0x09096374726c207c3d2075696e74382873697a652d3129203c3c2073686966740047,  -- ctrl |= uint8(size-1) << shift
  0x09097368696674202b3d20320048,  -- shift += 2
  0x097d0049,  -- }
  0x004a,
  0x0972657475726e206374726c004b,  -- return ctrl
  0x7d004c,  -- }
  0x004d,
  0x2f2f2050757455696e74333244656c74615363616c617220656e636f64657320757020746f203420696e7465676572732066726f6d20696e20696e746f206f7574207573696e6720746865004e,
  0x2f2f2053747265616d20564279746520666f726d61742e004f,
  0x2f2f0050,
  0x2f2f204e6f74653a20497420697320796f757220726573706f6e736962696c69747920746f20656e7375726520746861742074686520696e636f6d696e6720736c6963657320686176650051,
  0x2f2f2074686520617070726f7072696174652073697a657320616e642064617461206f746865727769736520746869732066756e632077696c6c2070616e69632e0052,
  0x66756e632050757455696e74333244656c74615363616c617228696e205b5d75696e7433322c206f7574205b5d627974652c20636f756e7420696e742c20707265762075696e743332292075696e7438207b0053,  -- func PutUint32DeltaScalar(in []uint32, out []byte, count int, prev uint32) uint8 {
  0x09696620636f756e74203d3d2030207b0054,  -- if count == 0 {
  0x090972657475726e20300055,  -- return 0
  0x097d0056,  -- }
  0x0057,
  0x09696620636f756e74203e2034207b0058,  -- if count > 4 {
  0x0909636f756e74203d20340059,  -- count = 4
  0x097d005a,  -- }
  0x005b,
  0x097661722028005c,  -- var (
  0x09096374726c202075696e7438005d,  -- ctrl  uint8
  0x09097368696674203d2030005e,  -- shift = 0
  0x0909746f74616c203d2030005f,  -- total = 0
  0x09290060,  -- )
  0x09666f722069203a3d20303b2069203c20636f756e743b20692b2b207b0061,  -- for i := 0; i < count; i++ {
  0x090973697a65203a3d20656e636f64654f6e6528696e5b695d2d707265762c206f75745b746f74616c3a5d290062,  -- size := encodeOne(in[i]-prev, out[total:])
  0x0909746f74616c202b3d2073697a650063,  -- total += size
  0x09096374726c207c3d2075696e74382873697a652d3129203c3c2073686966740064,  -- ctrl |= uint8(size-1) << shift
  0x09097368696674202b3d20320065,  -- shift += 2
  0x090970726576203d20696e5b695d0066,  -- prev = in[i]
  0x097d0067,  -- }
  0x0068,
  0x0972657475726e206374726c0069,  -- return ctrl
  0x7d006a,  -- }
  0x006b,
  0x2f2f205075743875696e7433325363616c61722077696c6c20656e636f646520382075696e7433322076616c7565732066726f6d20696e20696e746f206f7574207573696e6720746865006c,
  0x2f2f2053747265616d20564279746520666f726d61742e2052657475726e7320616e2031362d62697420636f6e74726f6c2076616c75652070726f64756365642066726f6d20746865006d,
  0x2f2f20656e636f64696e672e006e,
  0x2f2f006f,
  0x2f2f204e6f74653a20497420697320796f757220726573706f6e736962696c69747920746f20656e7375726520746861742074686520696e636f6d696e6720736c6963657320686176650070,
  0x2f2f2074686520617070726f7072696174652073697a657320616e642064617461206f746865727769736520746869732066756e632077696c6c2070616e69632e0071,
  0x66756e63205075743875696e7433325363616c617228696e205b5d75696e7433322c206f7574205b5d62797465292075696e743136207b0072,  -- func Put8uint32Scalar(in []uint32, out []byte) uint16 {
  0x09766172206374726c2075696e7431360073,  -- var ctrl uint16
  0x096669727374203a3d205075743475696e7433325363616c617228696e2c206f7574290074,  -- first := Put4uint32Scalar(in, out)
  0x096374726c207c3d2075696e743136286669727374290075,  -- ctrl |= uint16(first)
  0x09656e636f646564203a3d207368617265642e436f6e74726f6c42797465546f53697a65286669727374290076,  -- encoded := shared.ControlByteToSize(first)
  0x097365636f6e64203a3d205075743475696e7433325363616c617228696e5b343a5d2c206f75745b656e636f6465643a5d290077,  -- second := Put4uint32Scalar(in[4:], out[encoded:])
  0x0972657475726e206374726c207c2075696e743136287365636f6e64293c3c380078,  -- return ctrl | uint16(second)<<8
  0x7d0079,  -- }
  0x007a,
  0x2f2f205075743475696e7433325363616c61722077696c6c20656e636f646520342075696e7433322076616c7565732066726f6d20696e20696e746f206f7574207573696e6720746865007b,
  0x2f2f2053747265616d20564279746520666f726d61742e2052657475726e7320616e20382d62697420636f6e74726f6c2076616c75652070726f64756365642066726f6d20746865007c,
  0x2f2f20656e636f64696e672e20457665727920696e636f6d696e67206e756d626572206973207661726961626c7920656e636f6465642c20616e6420616e20382d62697420636f6e74726f6c007d,
  0x2f2f20697320636f6e73747275637465642066726f6d2074686520322d626974206c656e206f6620656163682075696e7433322e2042656c6f7720697320616e206578616d706c65206f66007e,
  0x2f2f20342075696e743332277320616e6420686f7720746865792061726520656e636f6465642e007f,
  0x2f2f0080,
  0x2f2f20303030303030303020303030303030303020303030303030303020303131303131313120203d20202020202020203131310081,
  0x2f2f20303030303030303020303030303030303020303030303031303020313130313030313020203d20202020202020313233340082,
  0x2f2f20303030303030303020303030303131303020303030303130313020313030303030313120203d20202020203738393132330083,
  0x2f2f20303130303030303020303030303030303020303030303030303020303030303030303020203d20313037333734313832340084,
  0x2f2f0085,
  0x2f2f204e756d2020202020202020204c656e202020202020322d62697420636f6e74726f6c0086,
  0x2f2f202d2d2d2d2d2d2d2d2d2d2d2d2d2d2d2d2d2d2d2d2d2d2d2d2d2d2d2d2d2d2d2d2d2d0087,
  0x2f2f20313131202020202020202020203120202020202020202020202020202020306230300088,
  0x2f2f20313233342020202020202020203220202020202020202020202020202020306230310089,
  0x2f2f2037383931323320202020202020332020202020202020202020202020202030623130008a,
  0x2f2f2031303733373431383234202020342020202020202020202020202020202030623131008b,
  0x2f2f008c,
  0x2f2f2046696e616c20436f6e74726f6c2062797465008d,
  0x2f2f2030623131313030313030008e,
  0x2f2f008f,
  0x2f2f20456e636f646564206461746120286c6974746c6520656e6469616e2072696768742d746f2d6c65667420626f74746f6d2d746f2d746f70290090,
  0x2f2f203062303130303030303020306230303030303030302030623030303030303030203062303030303030303020306230303030313130300091,
  0x2f2f203062303030303130313020306231303030303031312030623030303030313030203062313130313030313020306230313130313131310092,
  0x2f2f0093,
  0x2f2f204e6f74653a20497420697320796f757220726573706f6e736962696c69747920746f20656e7375726520746861742074686520696e636f6d696e6720736c6963657320686176650094,
  0x2f2f2074686520617070726f7072696174652073697a657320616e642064617461206f746865727769736520746869732066756e632077696c6c2070616e69632e0095,
  0x66756e63205075743475696e7433325363616c617228696e205b5d75696e7433322c206f7574205b5d62797465292075696e7438207b0096,  -- func Put4uint32Scalar(in []uint32, out []byte) uint8 {
  0x092f2f20626f756e647320636865636b2068696e7420746f20636f6d70696c65720097,
  0x095f203d20696e5b335d0098,  -- _ = in[3]
  0x0099,
  0x096e756d30203a3d20696e5b305d009a,  -- num0 := in[0]
  0x096e756d31203a3d20696e5b315d009b,  -- num1 := in[1]
  0x096e756d32203a3d20696e5b325d009c,  -- num2 := in[2]
  0x096e756d33203a3d20696e5b335d009d,  -- num3 := in[3]
  0x009e,
  0x096c656e30203a3d20656e636f64654f6e65286e756d302c206f757429009f,  -- len0 := encodeOne(num0, out)
  0x096c656e31203a3d20656e636f64654f6e65286e756d312c206f75745b6c656e303a5d2900a0,  -- len1 := encodeOne(num1, out[len0:])
  0x096c656e32203a3d20656e636f64654f6e65286e756d322c206f75745b6c656e302b6c656e313a5d2900a1,  -- len2 := encodeOne(num2, out[len0+len1:])
  0x096c656e33203a3d20656e636f64654f6e65286e756d332c206f75745b6c656e302b6c656e312b6c656e323a5d2900a2,  -- len3 := encodeOne(num3, out[len0+len1+len2:])
  0x00a3,
  0x0972657475726e2075696e743828286c656e30202d203129207c20286c656e312d31293c3c32207c20286c656e322d31293c3c34207c20286c656e332d31293c3c362900a4,  -- return uint8((len0 - 1) | (len1-1)<<2 | (len2-1)<<4 | (len3-1)<<6)
  0x7d00a5,  -- }
  0x00a6,
  0x2f2f205075743875696e74333244656c74615363616c61722077696c6c20646966666572656e7469616c6c7920656e636f646520382075696e7433322076616c7565732066726f6d20696e20696e746f206f75742e00a7,
  0x2f2f20507265762070726f766964657320612077617920666f7220796f7520746f20696e6469636174652074686520626173652076616c756520666f722074686973206261746368206f6620382e00a8,
  0x2f2f20466f72206578616d706c652c207768656e20656e636f64696e6720746865207365636f6e64206261746368206f66203820696e746567657273206f7574206f662c20652e672e2031362c20796f7520776f756c6400a9,
  0x2f2f2070726f76696465206120707265762076616c7565206f6620746865206c6173742076616c756520696e20746865206669727374206261746368206f66203820796f7520656e636f6465642e205468697300aa,
  0x2f2f20697320646f6e6520746f20656e7375726520746861742074686520696e7465676572732061726520636f72726563746c79207265736f6c76656420746f2074686520636f727265637420646966662e20416e00ab,
  0x2f2f206578616d706c652062656c6f772e204e6f7465207468617420746869732066756e6320617373756d657320746861742074686520696e70757420696e7465676572732061726520616c726561647920736f727465642e00ac,
  0x2f2f00ad,
  0x2f2f20496e7075743a095b2031302c2032302c2033302c2034302c2035302c2036302c2037302c203830205d205b2039302c203130302c203131302c203132302c203133302c203134302c203135302c20313630205d00ae,
  0x2f2f204f75747075743a095b2031302c2031302c2031302c2031302c2031302c2031302c2031302c203130205d205b2031302c2031302c2031302c2031302c2031302c2031302c2031302c203130205d00af,
  0x2f2f20507265763a20383000b0,
  0x66756e63205075743875696e74333244656c74615363616c617228696e205b5d75696e7433322c206f7574205b5d627974652c20707265762075696e743332292075696e743136207b00b1,  -- func Put8uint32DeltaScalar(in []uint32, out []byte, prev uint32) uint16 {
  0x09766172206374726c2075696e74313600b2,  -- var ctrl uint16
  0x096669727374203a3d205075743475696e74333244656c74615363616c617228696e2c206f75742c20707265762900b3,  -- first := Put4uint32DeltaScalar(in, out, prev)
  0x096374726c207c3d2075696e7431362866697273742900b4,  -- ctrl |= uint16(first)
  0x09656e636f646564203a3d207368617265642e436f6e74726f6c42797465546f53697a652866697273742900b5,  -- encoded := shared.ControlByteToSize(first)
  0x097365636f6e64203a3d205075743475696e74333244656c74615363616c617228696e5b343a5d2c206f75745b656e636f6465643a5d2c20696e5b335d2900b6,  -- second := Put4uint32DeltaScalar(in[4:], out[encoded:], in[3])
  0x0972657475726e206374726c207c2075696e743136287365636f6e64293c3c3800b7,  -- return ctrl | uint16(second)<<8
  0x7d00b8,  -- }
  0x00b9,
  0x2f2f205075743475696e74333244656c74615363616c61722077696c6c20646966666572656e7469616c6c7920656e636f646520342075696e7433322076616c7565732066726f6d20696e20696e746f206f75742e00ba,
  0x2f2f20507265762070726f766964657320612077617920666f7220796f7520746f20696e6469636174652074686520626173652076616c756520666f722074686973206261746368206f6620342e00bb,
  0x2f2f20466f72206578616d706c652c207768656e20656e636f64696e6720746865207365636f6e64206261746368206f66203420696e746567657273206f7574206f662c20652e672e20382c20796f7520776f756c6400bc,
  0x2f2f2070726f76696465206120707265762076616c7565206f6620746865206c6173742076616c756520696e20746865206669727374206261746368206f66203420796f7520656e636f6465642e205468697300bd,
  0x2f2f20697320646f6e6520746f20656e7375726520746861742074686520696e7465676572732061726520636f72726563746c79207265736f6c76656420746f2074686520636f727265637420646966662e20416e00be,
  0x2f2f206578616d706c652062656c6f772e204e6f7465207468617420746869732066756e6320617373756d657320746861742074686520696e70757420696e7465676572732061726520616c726561647920736f727465642e00bf,
  0x2f2f00c0,
  0x2f2f20496e7075743a095b2031302c2032302c2033302c203430205d205b2035302c2036302c2037302c203830205d00c1,
  0x2f2f204f75747075743a095b2031302c2031302c2031302c203130205d205b2031302c2031302c2031302c203130205d00c2,
  0x2f2f20507265763a20343000c3,
  0x66756e63205075743475696e74333244656c74615363616c617228696e205b5d75696e7433322c206f7574205b5d627974652c20707265762075696e743332292075696e7438207b00c4,  -- func Put4uint32DeltaScalar(in []uint32, out []byte, prev uint32) uint8 {
  0x092f2f20626f756e647320636865636b2068696e7420746f20636f6d70696c657200c5,
  0x095f203d20696e5b335d00c6,  -- _ = in[3]
  0x00c7,
  0x096e756d30203a3d20696e5b305d202d207072657600c8,  -- num0 := in[0] - prev
  0x096e756d31203a3d20696e5b315d202d20696e5b305d00c9,  -- num1 := in[1] - in[0]
  0x096e756d32203a3d20696e5b325d202d20696e5b315d00ca,  -- num2 := in[2] - in[1]
  0x096e756d33203a3d20696e5b335d202d20696e5b325d00cb,  -- num3 := in[3] - in[2]
  0x00cc,
  0x096c656e30203a3d20656e636f64654f6e65286e756d302c206f75742900cd,  -- len0 := encodeOne(num0, out)
  0x096c656e31203a3d20656e636f64654f6e65286e756d312c206f75745b6c656e303a5d2900ce,  -- len1 := encodeOne(num1, out[len0:])
  0x096c656e32203a3d20656e636f64654f6e65286e756d322c206f75745b6c656e302b6c656e313a5d2900cf,  -- len2 := encodeOne(num2, out[len0+len1:])
  0x096c656e33203a3d20656e636f64654f6e65286e756d332c206f75745b6c656e302b6c656e312b6c656e323a5d2900d0,  -- len3 := encodeOne(num3, out[len0+len1+len2:])
  0x00d1,
  0x0972657475726e2075696e743828286c656e30202d203129207c20286c656e312d31293c3c32207c20286c656e322d31293c3c34207c20286c656e332d31293c3c362900d2,  -- return uint8((len0 - 1) | (len1-1)<<2 | (len2-1)<<4 | (len3-1)<<6)
  0x7d00d3,  -- }
  0x00d4,
  0x66756e6320656e636f64654f6e65286e756d2075696e7433322c206f7574205b5d627974652920696e74207b00d5,  -- func encodeOne(num uint32, out []byte) int {
  0x0973697a65203a3d206d617828312c20342d28626974732e4c656164696e675a65726f733332286e756d292f38292900d6,  -- size := max(1, 4-(bits.LeadingZeros32(num)/8))
  0x097377697463682073697a65207b00d7,  -- switch size {
  0x096361736520343a00d8,  -- case 4:
  0x09096f75745b335d203d2062797465286e756d203e3e2032342900d9,  -- out[3] = byte(num >> 24)
  0x090966616c6c7468726f75676800da,  -- fallthrough
  0x096361736520333a00db,  -- case 3:
  0x09096f75745b325d203d2062797465286e756d203e3e2031362900dc,  -- out[2] = byte(num >> 16)
  0x090966616c6c7468726f75676800dd,  -- fallthrough
  0x096361736520323a00de,  -- case 2:
  0x09096f75745b315d203d2062797465286e756d203e3e20382900df,  -- out[1] = byte(num >> 8)
  0x090966616c6c7468726f75676800e0,  -- fallthrough
  0x096361736520313a00e1,  -- case 1:
  0x09096f75745b305d203d2062797465286e756d2900e2,  -- out[0] = byte(num)
  0x097d00e3,  -- }
  0x0972657475726e2073697a6500e4,  -- return size
  0x7d00e5,  -- }
  0x00e6,
  0x66756e63206d617828612c206220696e742920696e74207b00e7,  -- func max(a, b int) int {
  0x0969662061203c2062207b00e8,  -- if a < b {
  0x090972657475726e206200e9,  -- return b
  0x097d00ea,  -- }
  0x0972657475726e206100eb,  -- return a
  0x7d00ec]  -- }

/-- `/repo/pkg/encode/encode_base.go`. -/
def encodeBaseGo : List Nat := [
  0x2f2f202b6275696c642021616d6436340001,
  0x0002,
  0x7061636b61676520656e636f64650003,  -- package encode
  0x0004,
  0x696d706f727420280005,  -- import (
  0x09226769746875622e636f6d2f7468654d506174656c2f73747265616d76627974652d73696d64676f2f706b672f736861726564220006,  -- "github.com/theMPatel/streamvbyte-simdgo/pkg/shared"
  0x290007,  -- )
  0x0008,
  0x66756e63204765744d6f64652829207368617265642e506572666f726d616e63654d6f6465207b0009,  -- func GetMode() shared.PerformanceMode {
  0x0972657475726e207368617265642e4e6f726d616c000a,  -- return shared.Normal
  0x7d000b,  -- }
  0x000c,
  0x66756e63205075743875696e7433324661737428696e205b5d75696e7433322c206f7574205b5d62797465292075696e743136207b000d,  -- func Put8uint32Fast(in []uint32, out []byte) uint16 {
  0x0970616e69632822756e726561636861626c652229000e,  -- panic("unreachable")
  0x7d000f,  -- }
  0x0010,
  0x66756e63205075743875696e74333244656c74614661737428696e205b5d75696e7433322c206f7574205b5d627974652c20707265762075696e743332292075696e743136207b0011,  -- func Put8uint32DeltaFast(in []uint32, out []byte, prev uint32) uint16 {
  0x0970616e69632822756e726561636861626c6522290012,  -- panic("unreachable")
  0x7d0013]  -- }

/-- `/repo/pkg/decode/decode.go`. -/
def decodeMainGo : List Nat := [
  0x7061636b616765206465636f64650001,  -- package decode
  0x0002,
  0x696d706f727420280003,  -- import (
  0x09226769746875622e636f6d2f7468654d506174656c2f73747265616d76627974652d73696d64676f2f706b672f736861726564220004,  -- "github.com/theMPatel/streamvbyte-simdgo/pkg/shared"
  0x290005,  -- )
  0x0006,
  0x76617220280007,  -- var (
  0x09676574496d706c20202020202047657438496d706c0008,  -- getImpl      Get8Impl
  0x0967657444656c7461496d706c204765743844656c7461496d706c0009,  -- getDeltaImpl Get8DeltaImpl
  0x29000a,  -- )
  0x000b,
  0x747970652047657438496d706c2066756e6328696e205b5d627974652c206f7574205b5d75696e7433322c206374726c2075696e74313629000c,  -- type Get8Impl func(in []byte, out []uint32, ctrl uint16)
  0x74797065204765743844656c7461496d706c2066756e6328696e205b5d627974652c206f7574205b5d75696e7433322c206374726c2075696e7431362c20707265762075696e74333229000d,  -- type Get8DeltaImpl func(in []byte, out []uint32, ctrl uint16, prev uint32)
  0x000e,
  0x66756e6320696e69742829207b000f,  -- func init() {
  0x096966204765744d6f64652829203d3d207368617265642e46617374207b0010,  -- if GetMode() == shared.Fast {
  0x0909676574496d706c203d204765743875696e743332466173740011,  -- getImpl = Get8uint32Fast
  0x090967657444656c7461496d706c203d204765743875696e74333244656c7461466173740012,  -- getDeltaImpl = Get8uint32DeltaFast
  0x097d20656c7365207b0013,  -- } else {
  0x0909676574496d706c203d204765743875696e7433325363616c61720014,  -- getImpl = Get8uint32Scalar
  0x090967657444656c7461496d706c203d204765743875696e74333244656c74615363616c61720015,  -- getDeltaImpl = Get8uint32DeltaScalar
  0x097d0016,  -- }
  0x7d0017,  -- }
  0x0018,
  0x2f2f204765743875696e74333220697320612067656e6572616c2066756e6320796f752063616e2075736520746f206465636f646520382075696e743332277320617420612074696d652e0019,
  0x2f2f2049742077696c6c2075736520746865206661737465737420696d706c656d656e746174696f6e20617661696c61626c652064657465726d696e656420647572696e67001a,
  0x2f2f207061636b61676520696e697469616c697a6174696f6e2e20496620796f75722043505520737570706f727473207370656369616c20686172647761726520696e737472756374696f6e73001b,
  0x2f2f207468656e2069742077696c6c2075736520616e20616363656c6572617465642076657273696f6e206f662053747265616d2056427974652e204f74686572776973652c20746865001c,
  0x2f2f207363616c617220696d706c656d656e746174696f6e2077696c6c2062652075736564206173207468652066616c6c6261636b2e001d,
  0x66756e63204765743875696e74333228696e205b5d627974652c206f7574205b5d75696e7433322c206374726c2075696e74313629207b001e,  -- func Get8uint32(in []byte, out []uint32, ctrl uint16) {
  0x09676574496d706c28696e2c206f75742c206374726c29001f,  -- getImpl(in, out, ctrl)
  0x7d0020,  -- }
  0x0021,
  0x2f2f204765743875696e74333244656c746120697320612067656e6572616c2066756e6320796f752063616e2075736520746f206465636f6465203820646966666572656e7469616c6c7920636f6465640022,
  0x2f2f2075696e743332277320617420612074696d652e2049742077696c6c2075736520746865206661737465737420696d706c656d656e746174696f6e20617661696c61626c652064657465726d696e65640023,
  0x2f2f20647572696e67207061636b61676520696e697469616c697a6174696f6e2e20496620796f75722043505520737570706f727473207370656369616c20686172647761726520696e737472756374696f6e730024,
  0x2f2f207468656e2069742077696c6c2075736520616e20616363656c6572617465642076657273696f6e206f662053747265616d2056427974652e204f74686572776973652c207468650025,
  0x2f2f207363616c617220696d706c656d656e746174696f6e2077696c6c2062652075736564206173207468652066616c6c6261636b2e0026,
  0x66756e63204765743875696e74333244656c746128696e205b5d627974652c206f7574205b5d75696e7433322c206374726c2075696e7431362c20707265762075696e74333229207b0027,  -- func Get8uint32Delta(in []byte, out []uint32, ctrl uint16, prev uint32) {
  0x0967657444656c7461496d706c28696e2c206f75742c206374726c2c2070726576290028,  -- getDeltaImpl(in, out, ctrl, prev)
  0x7d0029,  -- }
  0x002a,
  0x2f2f204765743875696e7433325363616c61722077696c6c206465636f646520382075696e7433322076616c7565732066726f6d20696e20696e746f206f7574207573696e6720746865002b,
  0x2f2f2053747265616d20564279746520666f726d61742e2052657475726e7320746865206e756d626572206f6620627974657320726561642066726f6d2074686520696e707574002c,
  0x2f2f206275666665722e002d,
  0x2f2f002e,
  0x2f2f204e6f74653a20497420697320796f757220726573706f6e736962696c69747920746f20656e7375726520746861742074686520696e636f6d696e6720736c696365732068617665002f,
  0x2f2f2074686520617070726f7072696174652073697a657320616e642064617461206f746865727769736520746869732066756e632077696c6c2070616e69632e0030,
  0x66756e63204765743875696e7433325363616c617228696e205b5d627974652c206f7574205b5d75696e7433322c206374726c2075696e74313629207b0031,  -- func Get8uint32Scalar(in []byte, out []uint32, ctrl uint16) {
  0x096c6f776572203a3d2075696e7438286374726c20262030786666290032,  -- lower := uint8(ctrl & 0xff)
  0x097570706572203a3d2075696e7438286374726c203e3e2038290033,  -- upper := uint8(ctrl >> 8)
  0x096c6f77657253697a65203a3d207368617265642e436f6e74726f6c42797465546f53697a65286c6f776572290034,  -- lowerSize := shared.ControlByteToSize(lower)
  0x094765743475696e7433325363616c617228696e2c206f75742c206c6f776572290035,  -- Get4uint32Scalar(in, out, lower)
  0x094765743475696e7433325363616c617228696e5b6c6f77657253697a653a5d2c206f75745b343a5d2c207570706572290036,  -- Get4uint32Scalar(in[lowerSize:], out[4:], upper)
  0x7d0037,  -- }
  0x0038,
  0x2f2f204765743475696e7433325363616c61722077696c6c206465636f646520342075696e7433322076616c7565732066726f6d20696e20696e746f206f7574207573696e67207468650039,
  0x2f2f2053747265616d20564279746520666f726d61742e2052657475726e7320746865206e756d626572206f6620627974657320726561642066726f6d2074686520696e707574003a,
  0x2f2f206275666665722e003b,
  0x2f2f003c,
  0x2f2f204e6f74653a20497420697320796f757220726573706f6e736962696c69747920746f20656e7375726520746861742074686520696e636f6d696e6720736c696365732068617665003d,
  0x2f2f2074686520617070726f7072696174652073697a657320616e642064617461206f746865727769736520746869732066756e632077696c6c2070616e69632e003e,
  0x66756e63204765743475696e7433325363616c617228696e205b5d627974652c206f7574205b5d75696e7433322c206374726c2075696e743829207b003f,  -- func Get4uint32Scalar(in []byte, out []uint32, ctrl uint8) {
  0x0973697a6573203a3d207368617265642e5065724e756d4c656e5461626c655b6374726c5d0040,  -- sizes := shared.PerNumLenTable[ctrl]
  0x0041,
  0x096c656e33203a3d2073697a65735b335d0042,  -- len3 := sizes[3]
  0x096c656e32203a3d2073697a65735b325d0043,  -- len2 := sizes[2]
  0x096c656e31203a3d2073697a65735b315d0044,  -- len1 := sizes[1]
  0x096c656e30203a3d2073697a65735b305d0045,  -- len0 := sizes[0]
  0x0046,
  0x096f75745b335d203d206465636f64654f6e6528696e5b6c656e302b6c656e312b6c656e323a5d2c206c656e33290047,  -- out[3] = decodeOne(in[len0+len1+len2:], len3)
  0x096f75745b325d203d206465636f64654f6e6528696e5b6c656e302b6c656e313a5d2c206c656e32290048,  -- out[2] = decodeOne(in[len0+len1:], len2)
  0x096f75745b315d203d206465636f64654f6e6528696e5b6c656e303a5d2c206c656e31290049,  -- out[1] = decodeOne(in[len0:], len1)
  0x096f75745b305d203d206465636f64654f6e6528696e2c206c656e3029004a,  -- out[0] = decodeOne(in, len0)
  0x7d004b,  -- }
  0x004c,
  0x2f2f2047657455696e7433325363616c6172206465636f64657320757020746f203420696e7465676572732066726f6d20696e20696e746f206f7574207573696e6720746865004d,
  0x2f2f2053747265616d20564279746520666f726d61742e004e,
  0x2f2f004f,
  0x2f2f204e6f74653a20497420697320796f757220726573706f6e736962696c69747920746f20656e7375726520746861742074686520696e636f6d696e6720736c6963657320686176650050,
  0x2f2f2074686520617070726f7072696174652073697a657320616e642064617461206f746865727769736520746869732066756e632077696c6c2070616e69632e0051,
  0x66756e632047657455696e7433325363616c617228696e205b5d627974652c206f7574205b5d75696e7433322c206374726c2075696e74382c20636f756e7420696e742920696e74207b0052,  -- func GetUint32Scalar(in []byte, out []uint32, ctrl uint8, count int) int {
  0x09696620636f756e74203d3d2030207b0053,  -- if count == 0 {
  0x090972657475726e20300054,  -- return 0
  0x097d0055,  -- }
  0x0056,
  0x09696620636f756e74203e2034207b0057,  -- if count > 4 {
  0x0909636f756e74203d20340058,  -- count = 4
  0x097d0059,  -- }
  0x005a,
  0x097368696674203a3d2030005b,  -- shift := 0
  0x09746f74616c203a3d2030005c,  -- total := 0
  0x09666f722069203a3d20303b2069203c20636f756e743b20692b2b207b005d,  -- for i := 0; i < count; i++ {
  0x090973697a65203a3d2028286374726c203e3e2073686966742920262030783329202b2031005e,  -- size := ((ctrl >> shift) & 0x3) + 1
  0x09096f75745b695d203d206465636f64654f6e6528696e5b746f74616c3a5d2c2073697a6529005f,  -- out[i] = decodeOne(in[total:], size)
  0x0909746f74616c202b3d20696e742873697a65290060,  -- total += int(size)
  0x09097368696674202b3d20320061,  -- shift += 2
  0x097d0062,  -- }
  0x0063,
  0x0972657475726e20746f74616c0064,  -- return total
  0x7d0065,  -- }
  0x0066,
  0x2f2f2047657455696e74333244656c74615363616c6172206465636f64657320757020746f203420696e7465676572732066726f6d20696e20696e746f206f7574207573696e67207468650067,
  0x2f2f2053747265616d20564279746520666f726d61742e2049742077696c6c207265636f6e73747275637420746865206f726967696e616c206e6f6e20646966666572656e7469616c6c790068,
  0x2f2f20656e636f6465642076616c7565732e0069,
  0x2f2f006a,
  0x2f2f204e6f74653a20497420697320796f757220726573706f6e736962696c69747920746f20656e7375726520746861742074686520696e636f6d696e6720736c696365732068617665006b,
  0x2f2f2074686520617070726f7072696174652073697a657320616e642064617461206f746865727769736520746869732066756e632077696c6c2070616e69632e006c,
  0x66756e632047657455696e74333244656c74615363616c617228696e205b5d627974652c206f7574205b5d75696e7433322c206374726c2075696e74382c20636f756e7420696e742c20707265762075696e7433322920696e74207b006d,  -- func GetUint32DeltaScalar(in []byte, out []uint32, ctrl uint8, count int, prev uint32) int {
  0x09696620636f756e74203d3d2030207b006e,  -- if count == 0 {
  0x090972657475726e2030006f,  -- return 0
  0x097d0070,  -- }
  0x0071,
  0x09696620636f756e74203e2034207b0072,  -- if count > 4 {
  0x0909636f756e74203d20340073,  -- count = 4
  0x097d0074,  -- }
  0x0075,
  0x097368696674203a3d20300076,  -- shift := 0
  0x09746f74616c203a3d20300077,  -- total := 0
  0x09666f722069203a3d20303b2069203c20636f756e743b20692b2b207b0078,  -- for i := 0; i < count; i++ {
  0x090973697a65203a3d2028286374726c203e3e2073686966742920262030783329202b20310079,  -- size := ((ctrl >> shift) & 0x3) + 1
  0x09096e756d203a3d206465636f64654f6e6528696e5b746f74616c3a5d2c2073697a6529202b2070726576007a,  -- num := decodeOne(in[total:], size) + prev
  0x09096f75745b695d203d206e756d007b,  -- out[i] = num
  0x090970726576203d206e756d007c,  -- prev = num
  0x0909746f74616c202b3d20696e742873697a6529007d,  -- total += int(size)
  0x09097368696674202b3d2032007e,  -- shift += 2
  0x097d007f,  -- }
  0x0080,
  0x0972657475726e20746f74616c0081,  -- return total
  0x7d0082,  -- }
  0x0083,
  0x2f2f204765743875696e74333244656c74615363616c61722077696c6c206465636f646520382075696e7433322076616c7565732066726f6d20696e20696e746f206f757420616e64207265636f6e7374727563740084,
  0x2f2f20746865206f726967696e616c2076616c7565732076696120646966666572656e7469616c20636f64696e672e20507265762070726f766964657320612077617920666f7220796f7520746f0085,
  0x2f2f20696e6469636174652074686520626173652076616c756520666f722074686973206261746368206f6620382e20466f72206578616d706c652c207768656e206465636f64696e6720746865207365636f6e640086,
  0x2f2f206261746368206f66203820696e746567657273206f7574206f662c20652e672e2031362c20796f7520776f756c642070726f76696465206120707265762076616c7565206f6620746865206c6173742076616c75650087,
  0x2f2f20696e20746865206669727374206261746368206f66203820796f75206465636f6465642e205468697320697320646f6e6520746f20656e7375726520746861742074686520696e746567657273206172650088,
  0x2f2f20636f72726563746c79207265736f6c76656420746f2074686520636f727265637420646966662e20416e206578616d706c652062656c6f772e0089,
  0x2f2f008a,
  0x2f2f20496e7075743a095b2031302c2031302c2031302c2031302c2031302c2031302c2031302c203130205d205b2031302c2031302c2031302c2031302c2031302c2031302c2031302c203130205d008b,
  0x2f2f204f75747075743a095b2031302c2032302c2033302c2034302c2035302c2036302c2037302c203830205d205b2039302c203130302c203131302c203132302c203133302c203134302c203135302c20313630205d008c,
  0x2f2f20507265763a203830008d,
  0x66756e63204765743875696e74333244656c74615363616c617228696e205b5d627974652c206f7574205b5d75696e7433322c206374726c2075696e7431362c20707265762075696e74333229207b008e,  -- func Get8uint32DeltaScalar(in []byte, out []uint32, ctrl uint16, prev uint32) {
  0x096c6f776572203a3d2075696e7438286374726c2026203078666629008f,  -- lower := uint8(ctrl & 0xff)
  0x097570706572203a3d2075696e7438286374726c203e3e2038290090,  -- upper := uint8(ctrl >> 8)
  0x096c6f77657253697a65203a3d207368617265642e436f6e74726f6c42797465546f53697a65286c6f776572290091,  -- lowerSize := shared.ControlByteToSize(lower)
  0x094765743475696e74333244656c74615363616c617228696e2c206f75742c206c6f7765722c2070726576290092,  -- Get4uint32DeltaScalar(in, out, lower, prev)
  0x094765743475696e74333244656c74615363616c617228696e5b6c6f77657253697a653a5d2c206f75745b343a5d2c2075707065722c206f75745b335d290093,  -- Get4uint32DeltaScalar(in[lowerSize:], out[4:], upper, out[3])
  0x7d0094,  -- }
  0x0095,
  0x2f2f204765743475696e74333244656c74615363616c61722077696c6c206465636f646520342075696e7433322076616c7565732066726f6d20696e20696e746f206f757420616e64207265636f6e7374727563740096,
  0x2f2f20746865206f726967696e616c2076616c7565732076696120646966666572656e7469616c20636f64696e672e20507265762070726f766964657320612077617920666f7220796f7520746f0097,
  0x2f2f20696e6469636174652074686520626173652076616c756520666f722074686973206261746368206f6620342e20466f72206578616d706c652c207768656e206465636f64696e6720746865207365636f6e640098,
  0x2f2f206261746368206f66203420696e746567657273206f7574206f662c20652e672e20382c20796f7520776f756c642070726f76696465206120707265762076616c7565206f6620746865206c6173742076616c75650099,
  0x2f2f20696e20746865206669727374206261746368206f66203420796f75206465636f6465642e205468697320697320646f6e6520746f20656e7375726520746861742074686520696e74656765727320617265009a,
  0x2f2f20636f72726563746c79207265736f6c76656420746f2074686520636f727265637420646966662e20416e206578616d706c652062656c6f772e009b,
  0x2f2f009c,
  0x2f2f20496e7075743a095b2031302c2031302c2031302c203130205d205b2031302c2031302c2031302c203130205d009d,
  0x2f2f204f75747075743a095b2031302c2032302c2033302c203430205d205b2035302c2036302c2037302c203830205d009e,
  0x2f2f20507265763a203430009f,
  0x66756e63204765743475696e74333244656c74615363616c617228696e205b5d627974652c206f7574205b5d75696e7433322c206374726c2075696e74382c20707265762075696e74333229207b00a0,  -- func Get4uint32DeltaScalar(in []byte, out []uint32, ctrl uint8, prev uint32) {
  0x0973697a6573203a3d207368617265642e5065724e756d4c656e5461626c655b6374726c5d00a1,  -- sizes := shared.PerNumLenTable[ctrl]
  0x00a2,
  0x096c656e30203a3d2073697a65735b305d00a3,  -- len0 := sizes[0]
  0x096c656e31203a3d2073697a65735b315d00a4,  -- len1 := sizes[1]
  0x096c656e32203a3d2073697a65735b325d00a5,  -- len2 := sizes[2]
  0x096c656e33203a3d2073697a65735b335d00a6,  -- len3 := sizes[3]
  0x00a7,
  0x092f2f20626f756e647320636865636b2068696e7420746f20636f6d70696c657200a8,
  0x095f203d206f75745b335d00a9,  -- _ = out[3]
  0x096f75745b305d203d206465636f64654f6e6528696e2c206c656e3029202b207072657600aa,  -- out[0] = decodeOne(in, len0) + prev
  0x096f75745b315d203d206465636f64654f6e6528696e5b6c656e303a5d2c206c656e3129202b206f75745b305d00ab,  -- out[1] = decodeOne(in[len0:], len1) + out[0]
  0x096f75745b325d203d206465636f64654f6e6528696e5b6c656e302b6c656e313a5d2c206c656e3229202b206f75745b315d00ac,  -- out[2] = decodeOne(in[len0+len1:], len2) + out[1]
  0x096f75745b335d203d206465636f64654f6e6528696e5b6c656e302b6c656e312b6c656e323a5d2c206c656e3329202b206f75745b325d00ad,  -- out[3] = decodeOne(in[len0+len1+len2:], len3) + out[2]
  0x7d00ae,  -- }
  0x00af,
  0x66756e63206465636f64654f6e652862205b5d627974652c2073697a652075696e7438292075696e743332207b00b0,  -- func decodeOne(b []byte, size uint8) uint32 {
  0x097377697463682073697a65207b00b1,  -- switch size {
  0x096361736520343a00b2,  -- case 4:
  0x090972657475726e2075696e74333228625b335d293c3c3234207c2075696e74333228625b325d293c3c3136207c2075696e74333228625b315d293c3c38207c2075696e74333228625b305d2900b3,  -- return uint32(b[3])<<24 | uint32(b[2])<<16 | uint32(b[1])<<8 | uint32(b[0])
  0x096361736520333a00b4,  -- case 3:
  0x090972657475726e2075696e74333228625b325d293c3c3136207c2075696e74333228625b315d293c3c38207c2075696e74333228625b305d2900b5,  -- return uint32(b[2])<<16 | uint32(b[1])<<8 | uint32(b[0])
  0x096361736520323a00b6,  -- case 2:
  0x090972657475726e2075696e74333228625b315d293c3c38207c2075696e74333228625b305d2900b7,  -- return uint32(b[1])<<8 | uint32(b[0])
  0x096361736520313a00b8,  -- case 1:
  0x090972657475726e2075696e74333228625b305d2900b9,  -- return uint32(b[0])
  0x097d00ba,  -- }
  0x0970616e69632822696d706f737369626c65222900bb,  -- panic("impossible")
  0x7d00bc]  -- }

/-- `/repo/pkg/decode/decode_base.go`. -/
def decodeBaseGo : List Nat := [
  0x2f2f202b6275696c642021616d6436340001,
  0x0002,
  0x7061636b616765206465636f64650003,  -- package decode
  0x0004,
  0x696d706f727420280005,  -- import (
  0x09226769746875622e636f6d2f7468654d506174656c2f73747265616d76627974652d73696d64676f2f706b672f736861726564220006,  -- "github.com/theMPatel/streamvbyte-simdgo/pkg/shared"
  0x290007,  -- )
  0x0008,
  0x66756e63204765744d6f64652829207368617265642e506572666f726d616e63654d6f6465207b0009,  -- func GetMode() shared.PerformanceMode {
  0x0972657475726e207368617265642e4e6f726d616c000a,  -- return shared.Normal
  0x7d000b,  -- }
  0x000c,
  0x66756e63204765743875696e7433324661737428696e205b5d627974652c206f7574205b5d75696e7433322c206374726c2075696e7431362920696e74207b000d,  -- func Get8uint32Fast(in []byte, out []uint32, ctrl uint16) int {
  0x0970616e69632822756e726561636861626c652229000e,  -- panic("unreachable")
  0x7d000f,  -- }
  0x0010,
  0x66756e63204765743875696e74333244656c74614661737428696e205b5d627974652c206f7574205b5d75696e7433322c206374726c2075696e7431362c20707265762075696e7433322920696e74207b0011,  -- func Get8uint32DeltaFast(in []byte, out []uint32, ctrl uint16, prev uint32) int {
  0x0970616e69632822756e726561636861626c6522290012,  -- panic("unreachable")
  0x7d0013]  -- }

/-- `/repo/pkg/stream/writer/writer.go`. -/
def writerGo : List Nat := [
  0x7061636b616765207772697465720001,  -- package writer
  0x0002,
  0x696d706f727420280003,  -- import (
  0x09226769746875622e636f6d2f7468654d506174656c2f73747265616d76627974652d73696d64676f2f706b672f656e636f6465220004,  -- "github.com/theMPatel/streamvbyte-simdgo/pkg/encode"
  0x09226769746875622e636f6d2f7468654d506174656c2f73747265616d76627974652d73696d64676f2f706b672f736861726564220005,  -- "github.com/theMPatel/streamvbyte-simdgo/pkg/shared"
  0x290006,  -- )
  0x0007,
  0x636f6e737420280008,  -- const (
  0x096a756d7020202020203d2031360009,  -- jump     = 16
  0x096a756d704374726c203d206a756d70202f2034000a,  -- jumpCtrl = jump / 4
  0x29000b,  -- )
  0x000c,
  0x2f2f205772697465416c6c2077696c6c20656e636f646520616c6c2074686520696e7465676572732066726f6d20696e207573696e67207468652053747265616d205642797465000d,
  0x2f2f20666f726d617420616e642077696c6c2072657475726e20746865206279746520617272617920686f6c64696e672074686520656e636f64656420646174612e2049742077696c6c000e,
  0x2f2f2073656c65637420746865206265737420696d706c656d656e746174696f6e20646570656e64696e67206f6e207468652070726573656e6365206f66207370656369616c000f,
  0x2f2f20686172647761726520696e737472756374696f6e732e0010,
  0x66756e63205772697465416c6c28696e205b5d75696e74333229205b5d62797465207b0011,  -- func WriteAll(in []uint32) []byte {
  0x09696620656e636f64652e4765744d6f64652829203d3d207368617265642e46617374207b0012,  -- if encode.GetMode() == shared.Fast {
  0x090972657475726e205772697465416c6c4661737428696e290013,  -- return WriteAllFast(in)
  0x097d20656c7365207b0014,  -- } else {
  0x090972657475726e205772697465416c6c5363616c617228696e290015,  -- return WriteAllScalar(in)
  0x097d0016,  -- }
  0x7d0017,  -- }
  0x0018,
  0x2f2f205772697465416c6c44656c74612077696c6c20646966666572656e7469616c6c7920656e636f646520616c6c2074686520696e7465676572732066726f6d20696e207573696e670019,
  0x2f2f207468652053747265616d20564279746520666f726d617420616e642077696c6c2072657475726e20746865206279746520617272617920686f6c64696e672074686520656e636f646564001a,
  0x2f2f20646174612e2049742077696c6c2073656c65637420746865206265737420696d706c656d656e746174696f6e20646570656e64696e67206f6e207468652070726573656e6365206f66001b,
  0x2f2f207370656369616c20686172647761726520696e737472756374696f6e732e001c,
  0x66756e63205772697465416c6c44656c746128696e205b5d75696e7433322c20707265762075696e74333229205b5d62797465207b001d,  -- func WriteAllDelta(in []uint32, prev uint32) []byte {
  0x09696620656e636f64652e4765744d6f64652829203d3d207368617265642e46617374207b001e,  -- if encode.GetMode() == shared.Fast {
  0x090972657475726e205772697465416c6c44656c74614661737428696e2c207072657629001f,  -- return WriteAllDeltaFast(in, prev)
  0x097d20656c7365207b0020,  -- } else {
  0x090972657475726e205772697465416c6c44656c74615363616c617228696e2c2070726576290021,  -- return WriteAllDeltaScalar(in, prev)
  0x097d0022,  -- }
  0x7d0023,  -- }
  0x0024,
  0x2f2f205772697465416c6c5363616c61722077696c6c20656e636f646520616c6c2074686520696e7465676572732066726f6d20696e207573696e67207468652053747265616d2056427974650025,
  0x2f2f20666f726d617420616e642077696c6c2072657475726e20746865206279746520617272617920686f6c64696e672074686520656e636f64656420646174612e0026,
  0x66756e63205772697465416c6c5363616c617228696e205b5d75696e74333229205b5d62797465207b0027,  -- func WriteAllScalar(in []uint32) []byte {
  0x0976617220280028,  -- var (
  0x0909636f756e742020203d206c656e28696e290029,  -- count   = len(in)
  0x09096374726c4c656e203d2028636f756e74202b203329202f2034002a,  -- ctrlLen = (count + 3) / 4
  0x090973747265616d20203d206d616b65285b5d627974652c206374726c4c656e2b28656e636f64652e4d617842797465735065724e756d2a636f756e742929002b,  -- stream  = make([]byte, ctrlLen+(encode.MaxBytesPerNum*count))
  0x002c,
  0x090964617461506f73202020203d206374726c4c656e002d,  -- dataPos    = ctrlLen
  0x09096374726c506f73202020203d2030002e,  -- ctrlPos    = 0
  0x0909656e636f646564202020203d2030002f,  -- encoded    = 0
  0x09096c6f776573744a756d70203d20636f756e7420265e20286a756d70202d2031290030,  -- lowestJump = count &^ (jump - 1)
  0x09096c6f7765737434202020203d20636f756e7420265e20330031,  -- lowest4    = count &^ 3
  0x09290032,  -- )
  0x0033,
  0x09666f72203b20656e636f646564203c206c6f776573744a756d703b20656e636f646564202b3d206a756d70207b0034,  -- for ; encoded < lowestJump; encoded += jump {
  0x09096e756d73203a3d20696e5b656e636f646564203a20656e636f6465642b6a756d705d0035,  -- nums := in[encoded : encoded+jump]
  0x090964617461203a3d2073747265616d5b64617461506f733a5d0036,  -- data := stream[dataPos:]
  0x09096374726c73203a3d2073747265616d5b6374726c506f73203a206374726c506f732b6a756d704374726c5d0037,  -- ctrls := stream[ctrlPos : ctrlPos+jumpCtrl]
  0x0038,
  0x09096374726c203a3d20656e636f64652e5075743475696e7433325363616c6172286e756d732c2064617461290039,  -- ctrl := encode.Put4uint32Scalar(nums, data)
  0x09096374726c735b305d203d206374726c003a,  -- ctrls[0] = ctrl
  0x090973697a6541203a3d207368617265642e436f6e74726f6c42797465546f53697a65286374726c29003b,  -- sizeA := shared.ControlByteToSize(ctrl)
  0x003c,
  0x09096374726c203d20656e636f64652e5075743475696e7433325363616c6172286e756d735b343a5d2c20646174615b73697a65413a5d29003d,  -- ctrl = encode.Put4uint32Scalar(nums[4:], data[sizeA:])
  0x09096374726c735b315d203d206374726c003e,  -- ctrls[1] = ctrl
  0x090973697a6542203a3d207368617265642e436f6e74726f6c42797465546f53697a65286374726c29003f,  -- sizeB := shared.ControlByteToSize(ctrl)
  0x0040,
  0x09096374726c203d20656e636f64652e5075743475696e7433325363616c6172286e756d735b383a5d2c20646174615b73697a65412b73697a65423a5d290041,  -- ctrl = encode.Put4uint32Scalar(nums[8:], data[sizeA+sizeB:])
  0x09096374726c735b325d203d206374726c0042,  -- ctrls[2] = ctrl
  0x090973697a6543203a3d207368617265642e436f6e74726f6c42797465546f53697a65286374726c290043,  -- sizeC := shared.ControlByteToSize(ctrl)
  0x0044,
  0x09096374726c203d20656e636f64652e5075743475696e7433325363616c6172286e756d735b31323a5d2c20646174615b73697a65412b73697a65422b73697a65433a5d290045,  -- ctrl = encode.Put4uint32Scalar(nums[12:], data[sizeA+sizeB+sizeC:])
  0x09096374726c735b335d203d206374726c0046,  -- ctrls[3] = ctrl
  0x090973697a6544203a3d207368617265642e436f6e74726f6c42797465546f53697a65286374726c290047,  -- sizeD := shared.ControlByteToSize(ctrl)
  0x0048,
  0x090964617461506f73202b3d2073697a6541202b2073697a6542202b2073697a6543202b2073697a65440049,  -- dataPos += sizeA + sizeB + sizeC + sizeD
  0x09096374726c506f73202b3d206a756d704374726c004a,  -- ctrlPos += jumpCtrl
  0x097d004b,  -- }
  0x004c,
  0x09666f72203b20656e636f646564203c206c6f77657374343b20656e636f646564202b3d2034207b004d,  -- for ; encoded < lowest4; encoded += 4 {
  0x09096374726c203a3d20656e636f64652e5075743475696e7433325363616c617228696e5b656e636f6465643a5d2c2073747265616d5b64617461506f733a5d29004e,  -- ctrl := encode.Put4uint32Scalar(in[encoded:], stream[dataPos:])
  0x090973747265616d5b6374726c506f735d203d206374726c004f,  -- stream[ctrlPos] = ctrl
  0x090973697a65203a3d207368617265642e436f6e74726f6c42797465546f53697a65286374726c290050,  -- size := shared.ControlByteToSize(ctrl)
  0x090964617461506f73202b3d2073697a650051,  -- dataPos += size
  0x09096374726c506f732b2b0052,  -- ctrlPos++
  0x097d0053,  -- }
  0x0054,
  0x096966206c6f776573743420213d20636f756e74207b0055,  -- if lowest4 != count {
  0x09096e756d73203a3d20636f756e74202d206c6f77657374340056,  -- nums := count - lowest4
  0x09096374726c203a3d20656e636f64652e50757455696e7433325363616c617228696e5b656e636f6465643a5d2c2073747265616d5b64617461506f733a5d2c206e756d73290057,  -- ctrl := encode.PutUint32Scalar(in[encoded:], stream[dataPos:], nums)
  0x090973697a65203a3d207368617265642e436f6e74726f6c42797465546f53697a65286374726c290058,  -- size := shared.ControlByteToSize(ctrl)
  0x090973697a65202d3d2034202d206e756d730059,  -- size -= 4 - nums
  0x090964617461506f73202b3d2073697a65005a,  -- dataPos += size
  0x090973747265616d5b6374726c506f735d203d206374726c005b,  -- stream[ctrlPos] = ctrl
  0x097d005c,  -- }
  0x005d,
  0x0972657475726e2073747265616d5b3a64617461506f735d005e,  -- return stream[:dataPos]
  0x7d005f,  -- }
  0x0060,
  0x2f2f205772697465416c6c44656c74615363616c61722077696c6c20646966666572656e7469616c6c7920656e636f646520616c6c2074686520696e7465676572732066726f6d20696e207573696e670061,
  0x2f2f207468652053747265616d20564279746520666f726d617420616e642077696c6c2072657475726e20746865206279746520617272617920686f6c64696e672074686520656e636f64656420646174612e0062,
  0x66756e63205772697465416c6c44656c74615363616c617228696e205b5d75696e7433322c20707265762075696e74333229205b5d62797465207b0063,  -- func WriteAllDeltaScalar(in []uint32, prev uint32) []byte {
  0x0976617220280064,  -- var (
  0x0909636f756e742020203d206c656e28696e290065,  -- count   = len(in)
  0x09096374726c4c656e203d2028636f756e74202b203329202f20340066,  -- ctrlLen = (count + 3) / 4
  0x090973747265616d20203d206d616b65285b5d627974652c206374726c4c656e2b28656e636f64652e4d617842797465735065724e756d2a636f756e7429290067,  -- stream  = make([]byte, ctrlLen+(encode.MaxBytesPerNum*count))
  0x0068,
  0x090964617461506f73202020203d206374726c4c656e0069,  -- dataPos    = ctrlLen
  0x09096374726c506f73202020203d2030006a,  -- ctrlPos    = 0
  0x0909656e636f646564202020203d2030006b,  -- encoded    = 0
  0x09096c6f776573744a756d70203d20636f756e7420265e20286a756d70202d203129006c,  -- lowestJump = count &^ (jump - 1)
  0x09096c6f7765737434202020203d20636f756e7420265e2033006d,  -- lowest4    = count &^ 3
  0x0929006e,  -- )
  0x006f,
  0x09666f72203b20656e636f646564203c206c6f776573744a756d703b20656e636f646564202b3d206a756d70207b0070,  -- for ; encoded < lowestJump; encoded += jump {
  0x09096e756d73203a3d20696e5b656e636f646564203a20656e636f6465642b6a756d705d0071,  -- nums := in[encoded : encoded+jump]
  0x090964617461203a3d2073747265616d5b64617461506f733a5d0072,  -- data := stream[dataPos:]
  0x09096374726c73203a3d2073747265616d5b6374726c506f73203a206374726c506f732b6a756d704374726c5d0073,  -- ctrls := stream[ctrlPos : ctrlPos+jumpCtrl]
  0x0074,
  0x09096374726c203a3d20656e636f64652e5075743475696e74333244656c74615363616c6172286e756d732c20646174612c2070726576290075,  -- ctrl := encode.Put4uint32DeltaScalar(nums, data, prev)
  0x09096374726c735b305d203d206374726c0076,  -- ctrls[0] = ctrl
  0x090973697a6541203a3d207368617265642e436f6e74726f6c42797465546f53697a65286374726c290077,  -- sizeA := shared.ControlByteToSize(ctrl)
  0x0078,
  0x09096374726c203d20656e636f64652e5075743475696e74333244656c74615363616c6172286e756d735b343a5d2c20646174615b73697a65413a5d2c206e756d735b335d290079,  -- ctrl = encode.Put4uint32DeltaScalar(nums[4:], data[sizeA:], nums[3])
  0x09096374726c735b315d203d206374726c007a,  -- ctrls[1] = ctrl
  0x090973697a6542203a3d207368617265642e436f6e74726f6c42797465546f53697a65286374726c29007b,  -- sizeB := shared.ControlByteToSize(ctrl)
  0x007c,
  0x09096374726c203d20656e636f64652e5075743475696e74333244656c74615363616c6172286e756d735b383a5d2c20646174615b73697a65412b73697a65423a5d2c206e756d735b375d29007d,  -- ctrl = encode.Put4uint32DeltaScalar(nums[8:], data[sizeA+sizeB:], nums[7])
  0x09096374726c735b325d203d206374726c007e,  -- ctrls[2] = ctrl
  0x090973697a6543203a3d207368617265642e436f6e74726f6c42797465546f53697a65286374726c29007f,  -- sizeC := shared.ControlByteToSize(ctrl)
  0x0080,
  0x09096374726c203d20656e636f64652e5075743475696e74333244656c74615363616c6172286e756d735b31323a5d2c20646174615b73697a65412b73697a65422b73697a65433a5d2c206e756d735b31315d290081,  -- ctrl = encode.Put4uint32DeltaScalar(nums[12:], data[sizeA+sizeB+sizeC:], nums[11])
  0x09096374726c735b335d203d206374726c0082,  -- ctrls[3] = ctrl
  0x090973697a6544203a3d207368617265642e436f6e74726f6c42797465546f53697a65286374726c290083,  -- sizeD := shared.ControlByteToSize(ctrl)
  0x0084,
  0x090964617461506f73202b3d2073697a6541202b2073697a6542202b2073697a6543202b2073697a65440085,  -- dataPos += sizeA + sizeB + sizeC + sizeD
  0x09096374726c506f73202b3d206a756d704374726c0086,  -- ctrlPos += jumpCtrl
  0x090970726576203d206e756d735b31355d0087,  -- prev = nums[15]
  0x097d0088,  -- }
  0x0089,
  0x09666f72203b20656e636f646564203c206c6f77657374343b20656e636f646564202b3d2034207b008a,  -- for ; encoded < lowest4; encoded += 4 {
  0x09096374726c203a3d20656e636f64652e5075743475696e74333244656c74615363616c617228696e5b656e636f6465643a5d2c2073747265616d5b64617461506f733a5d2c207072657629008b,  -- ctrl := encode.Put4uint32DeltaScalar(in[encoded:], stream[dataPos:], prev)
  0x090973747265616d5b6374726c506f735d203d206374726c008c,  -- stream[ctrlPos] = ctrl
  0x090973697a65203a3d207368617265642e436f6e74726f6c42797465546f53697a65286374726c29008d,  -- size := shared.ControlByteToSize(ctrl)
  0x090964617461506f73202b3d2073697a65008e,  -- dataPos += size
  0x09096374726c506f732b2b008f,  -- ctrlPos++
  0x090970726576203d20696e5b656e636f6465642b335d0090,  -- prev = in[encoded+3]
  0x097d0091,  -- }
  0x0092,
  0x096966206c6f776573743420213d20636f756e74207b0093,  -- if lowest4 != count {
  0x09096e756d73203a3d20636f756e74202d206c6f77657374340094,  -- nums := count - lowest4
  0x09096374726c203a3d20656e636f64652e50757455696e74333244656c74615363616c617228696e5b656e636f6465643a5d2c2073747265616d5b64617461506f733a5d2c206e756d732c2070726576290095,  -- ctrl := encode.PutUint32DeltaScalar(in[encoded:], stream[dataPos:], nums, prev)
  0x090973697a65203a3d207368617265642e436f6e74726f6c42797465546f53697a65286374726c290096,  -- size := shared.ControlByteToSize(ctrl)
  0x090973697a65202d3d2034202d206e756d730097,  -- size -= 4 - nums
  0x090964617461506f73202b3d2073697a650098,  -- dataPos += size
  0x090973747265616d5b6374726c506f735d203d206374726c0099,  -- stream[ctrlPos] = ctrl
  0x097d009a,  -- }
  0x009b,
  0x0972657475726e2073747265616d5b3a64617461506f735d009c,  -- return stream[:dataPos]
  0x7d009d]  -- }

/-- `/repo/pkg/stream/writer/writer_amd64.go`. -/
def writerAmd64Go : List Nat := [
  0x2f2f202b6275696c6420616d6436340001,
  0x0002,
  0x7061636b616765207772697465720003,  -- package writer
  0x0004,
  0x696d706f727420280005,  -- import (
  0x09226769746875622e636f6d2f7468654d506174656c2f73747265616d76627974652d73696d64676f2f706b672f656e636f6465220006,  -- "github.com/theMPatel/streamvbyte-simdgo/pkg/encode"
  0x09226769746875622e636f6d2f7468654d506174656c2f73747265616d76627974652d73696d64676f2f706b672f736861726564220007,  -- "github.com/theMPatel/streamvbyte-simdgo/pkg/shared"
  0x290008,  -- )
  0x0009,
  0x2f2f205772697465416c6c466173742077696c6c20656e636f646520616c6c2074686520696e7465676572732066726f6d20696e207573696e67207468652053747265616d205642797465000a,
  0x2f2f20666f726d6174207573696e67207370656369616c20686172647761726520696e737472756374696f6e7320616e642077696c6c2072657475726e207468652062797465206172726179000b,
  0x2f2f20686f6c64696e672074686520656e636f64656420646174612e000c,
  0x66756e63205772697465416c6c4661737428696e205b5d75696e74333229205b5d62797465207b000d,  -- func WriteAllFast(in []uint32) []byte {
  0x097661722028000e,  -- var (
  0x0909636f756e742020203d206c656e28696e29000f,  -- count   = len(in)
  0x09096374726c4c656e203d2028636f756e74202b203329202f20340010,  -- ctrlLen = (count + 3) / 4
  0x090973747265616d20203d206d616b65285b5d627974652c206374726c4c656e2b28656e636f64652e4d617842797465735065724e756d2a636f756e7429290011,  -- stream  = make([]byte, ctrlLen+(encode.MaxBytesPerNum*count))
  0x0012,
  0x090964617461506f7320203d206374726c4c656e0013,  -- dataPos  = ctrlLen
  0x09096374726c506f7320203d20300014,  -- ctrlPos  = 0
  0x0909656e636f64656420203d20300015,  -- encoded  = 0
  0x09096c6f776573743332203d2028286374726c4c656e202d203329202a20342920265e2033310016,  -- lowest32 = ((ctrlLen - 3) * 4) &^ 31
  0x09290017,  -- )
  0x0018,
  0x09666f72203b20656e636f646564203c206c6f7765737433323b20656e636f646564202b3d203332207b0019,  -- for ; encoded < lowest32; encoded += 32 {
  0x09096374726c73203a3d2073747265616d5b6374726c506f73203a206374726c506f732b385d001a,  -- ctrls := stream[ctrlPos : ctrlPos+8]
  0x09096e756d73203a3d20696e5b656e636f646564203a20656e636f6465642b33325d001b,  -- nums := in[encoded : encoded+32]
  0x09096f7574203a3d2073747265616d5b64617461506f733a5d001c,  -- out := stream[dataPos:]
  0x001d,
  0x09096374726c203a3d20656e636f64652e5075743875696e7433324661737441736d28001e,  -- ctrl := encode.Put8uint32FastAsm(
  0x0909096e756d735b303a385d2c001f,  -- nums[0:8],
  0x0909096f75742c0020,  -- out,
  0x0909097368617265642e456e636f646553687566666c655461626c652c0021,  -- shared.EncodeShuffleTable,
  0x0909097368617265642e506572436f6e74726f6c4c656e5461626c652c0022,  -- shared.PerControlLenTable,
  0x0909290023,  -- )
  0x0024,
  0x09096374726c735b305d203d2075696e7438286374726c20262030786666290025,  -- ctrls[0] = uint8(ctrl & 0xff)
  0x09096374726c735b315d203d2075696e7438286374726c203e3e2038290026,  -- ctrls[1] = uint8(ctrl >> 8)
  0x090973697a6541203a3d207368617265642e436f6e74726f6c42797465546f53697a6554776f286374726c290027,  -- sizeA := shared.ControlByteToSizeTwo(ctrl)
  0x0028,
  0x09096374726c203d20656e636f64652e5075743875696e7433324661737441736d280029,  -- ctrl = encode.Put8uint32FastAsm(
  0x0909096e756d735b383a31365d2c002a,  -- nums[8:16],
  0x0909096f75745b73697a65413a5d2c002b,  -- out[sizeA:],
  0x0909097368617265642e456e636f646553687566666c655461626c652c002c,  -- shared.EncodeShuffleTable,
  0x0909097368617265642e506572436f6e74726f6c4c656e5461626c652c002d,  -- shared.PerControlLenTable,
  0x090929002e,  -- )
  0x002f,
  0x09096374726c735b325d203d2075696e7438286374726c20262030786666290030,  -- ctrls[2] = uint8(ctrl & 0xff)
  0x09096374726c735b335d203d2075696e7438286374726c203e3e2038290031,  -- ctrls[3] = uint8(ctrl >> 8)
  0x090973697a6542203a3d207368617265642e436f6e74726f6c42797465546f53697a6554776f286374726c290032,  -- sizeB := shared.ControlByteToSizeTwo(ctrl)
  0x0033,
  0x09096374726c203d20656e636f64652e5075743875696e7433324661737441736d280034,  -- ctrl = encode.Put8uint32FastAsm(
  0x0909096e756d735b31363a32345d2c0035,  -- nums[16:24],
  0x0909096f75745b73697a65412b73697a65423a5d2c0036,  -- out[sizeA+sizeB:],
  0x0909097368617265642e456e636f646553687566666c655461626c652c0037,  -- shared.EncodeShuffleTable,
  0x0909097368617265642e506572436f6e74726f6c4c656e5461626c652c0038,  -- shared.PerControlLenTable,
  0x0909290039,  -- )
  0x003a,
  0x09096374726c735b345d203d2075696e7438286374726c2026203078666629003b,  -- ctrls[4] = uint8(ctrl & 0xff)
  0x09096374726c735b355d203d2075696e7438286374726c203e3e203829003c,  -- ctrls[5] = uint8(ctrl >> 8)
  0x090973697a6543203a3d207368617265642e436f6e74726f6c42797465546f53697a6554776f286374726c29003d,  -- sizeC := shared.ControlByteToSizeTwo(ctrl)
  0x003e,
  0x09096374726c203d20656e636f64652e5075743875696e7433324661737441736d28003f,  -- ctrl = encode.Put8uint32FastAsm(
  0x0909096e756d735b32343a5d2c0040,  -- nums[24:],
  0x0909096f75745b73697a65412b73697a65422b73697a65433a5d2c0041,  -- out[sizeA+sizeB+sizeC:],
  0x0909097368617265642e456e636f646553687566666c655461626c652c0042,  -- shared.EncodeShuffleTable,
  0x0909097368617265642e506572436f6e74726f6c4c656e5461626c652c0043,  -- shared.PerControlLenTable,
  0x0909290044,  -- )
  0x0045,
  0x09096374726c735b365d203d2075696e7438286374726c20262030786666290046,  -- ctrls[6] = uint8(ctrl & 0xff)
  0x09096374726c735b375d203d2075696e7438286374726c203e3e2038290047,  -- ctrls[7] = uint8(ctrl >> 8)
  0x090973697a6544203a3d207368617265642e436f6e74726f6c42797465546f53697a6554776f286374726c290048,  -- sizeD := shared.ControlByteToSizeTwo(ctrl)
  0x0049,
  0x09096374726c506f73202b3d2038004a,  -- ctrlPos += 8
  0x090964617461506f73202b3d2073697a6541202b2073697a6542202b2073697a6543202b2073697a6544004b,  -- dataPos += sizeA + sizeB + sizeC + sizeD
  0x097d004c,  -- }
  0x004d,
  0x09666f72203b206374726c506f73203c206374726c4c656e2d323b206374726c506f73202b3d2032207b004e,  -- for ; ctrlPos < ctrlLen-2; ctrlPos += 2 {
  0x09096374726c203a3d20656e636f64652e5075743875696e7433324661737441736d28004f,  -- ctrl := encode.Put8uint32FastAsm(
  0x090909696e5b656e636f6465643a5d2c0050,  -- in[encoded:],
  0x09090973747265616d5b64617461506f733a5d2c0051,  -- stream[dataPos:],
  0x0909097368617265642e456e636f646553687566666c655461626c652c0052,  -- shared.EncodeShuffleTable,
  0x0909097368617265642e506572436f6e74726f6c4c656e5461626c652c0053,  -- shared.PerControlLenTable,
  0x0909290054,  -- )
  0x0055,
  0x090973747265616d5b6374726c506f735d203d2075696e7438286374726c20262030786666290056,  -- stream[ctrlPos] = uint8(ctrl & 0xff)
  0x090973747265616d5b6374726c506f732b315d203d2075696e7438286374726c203e3e2038290057,  -- stream[ctrlPos+1] = uint8(ctrl >> 8)
  0x0909656e636f646564202b3d20380058,  -- encoded += 8
  0x090964617461506f73202b3d207368617265642e436f6e74726f6c42797465546f53697a6554776f286374726c290059,  -- dataPos += shared.ControlByteToSizeTwo(ctrl)
  0x097d005a,  -- }
  0x005b,
  0x09666f72203b206374726c506f73203c206374726c4c656e3b206374726c506f73202b3d2031207b005c,  -- for ; ctrlPos < ctrlLen; ctrlPos += 1 {
  0x09096e756d73203a3d20636f756e74202d20656e636f646564005d,  -- nums := count - encoded
  0x09096966206e756d73203e2034207b005e,  -- if nums > 4 {
  0x0909096e756d73203d2034005f,  -- nums = 4
  0x09097d0060,  -- }
  0x09096374726c203a3d20656e636f64652e50757455696e7433325363616c617228696e5b656e636f6465643a5d2c2073747265616d5b64617461506f733a5d2c206e756d73290061,  -- ctrl := encode.PutUint32Scalar(in[encoded:], stream[dataPos:], nums)
  0x090973697a65203a3d207368617265642e436f6e74726f6c42797465546f53697a65286374726c290062,  -- size := shared.ControlByteToSize(ctrl)
  0x090973747265616d5b6374726c506f735d203d206374726c0063,  -- stream[ctrlPos] = ctrl
  0x090973697a65202d3d2034202d206e756d730064,  -- size -= 4 - nums
  0x090964617461506f73202b3d2073697a650065,  -- dataPos += size
  0x0909656e636f646564202b3d206e756d730066,  -- encoded += nums
  0x097d0067,  -- }
  0x0068,
  0x0972657475726e2073747265616d5b3a64617461506f735d0069,  -- return stream[:dataPos]
  0x7d006a,  -- }
  0x006b,
  0x2f2f205772697465416c6c44656c7461466173742077696c6c20646966666572656e7469616c6c7920656e636f646520616c6c2074686520696e7465676572732066726f6d20696e207573696e67006c,
  0x2f2f207468652053747265616d20564279746520666f726d6174207573696e67207370656369616c20686172647761726520696e737472756374696f6e7320616e642077696c6c2072657475726e006d,
  0x2f2f20746865206279746520617272617920686f6c64696e672074686520656e636f64656420646174612e006e,
  0x66756e63205772697465416c6c44656c74614661737428696e205b5d75696e7433322c20707265762075696e74333229205b5d62797465207b006f,  -- func WriteAllDeltaFast(in []uint32, prev uint32) []byte {
  0x0976617220280070,  -- var (
  0x0909636f756e742020203d206c656e28696e290071,  -- count   = len(in)
  0x09096374726c4c656e203d2028636f756e74202b203329202f20340072,  -- ctrlLen = (count + 3) / 4
  0x090973747265616d20203d206d616b65285b5d627974652c206374726c4c656e2b28656e636f64652e4d617842797465735065724e756d2a636f756e7429290073,  -- stream  = make([]byte, ctrlLen+(encode.MaxBytesPerNum*count))
  0x0074,
  0x090964617461506f7320203d206374726c4c656e0075,  -- dataPos  = ctrlLen
  0x09096374726c506f7320203d20300076,  -- ctrlPos  = 0
  0x0909656e636f64656420203d20300077,  -- encoded  = 0
  0x09096c6f776573743332203d2028286374726c4c656e202d203329202a20342920265e2033310078,  -- lowest32 = ((ctrlLen - 3) * 4) &^ 31
  0x09290079,  -- )
  0x007a,
  0x09666f72203b20656e636f646564203c206c6f7765737433323b20656e636f646564202b3d203332207b007b,  -- for ; encoded < lowest32; encoded += 32 {
  0x09096374726c73203a3d2073747265616d5b6374726c506f73203a206374726c506f732b385d007c,  -- ctrls := stream[ctrlPos : ctrlPos+8]
  0x09096e756d73203a3d20696e5b656e636f646564203a20656e636f6465642b33325d007d,  -- nums := in[encoded : encoded+32]
  0x09096f7574203a3d2073747265616d5b64617461506f733a5d007e,  -- out := stream[dataPos:]
  0x007f,
  0x09096374726c203a3d20656e636f64652e5075743875696e74333244656c74614661737441736d280080,  -- ctrl := encode.Put8uint32DeltaFastAsm(
  0x0909096e756d735b303a385d2c0081,  -- nums[0:8],
  0x0909096f75742c0082,  -- out,
  0x090909707265762c0083,  -- prev,
  0x0909097368617265642e456e636f646553687566666c655461626c652c0084,  -- shared.EncodeShuffleTable,
  0x0909097368617265642e506572436f6e74726f6c4c656e5461626c652c0085,  -- shared.PerControlLenTable,
  0x0909290086,  -- )
  0x0087,
  0x09096374726c735b305d203d2075696e7438286374726c20262030786666290088,  -- ctrls[0] = uint8(ctrl & 0xff)
  0x09096374726c735b315d203d2075696e7438286374726c203e3e2038290089,  -- ctrls[1] = uint8(ctrl >> 8)
  0x090973697a6541203a3d207368617265642e436f6e74726f6c42797465546f53697a6554776f286374726c29008a,  -- sizeA := shared.ControlByteToSizeTwo(ctrl)
  0x008b,
  0x09096374726c203d20656e636f64652e5075743875696e74333244656c74614661737441736d28008c,  -- ctrl = encode.Put8uint32DeltaFastAsm(
  0x0909096e756d735b383a31365d2c008d,  -- nums[8:16],
  0x0909096f75745b73697a65413a5d2c008e,  -- out[sizeA:],
  0x0909096e756d735b375d2c008f,  -- nums[7],
  0x0909097368617265642e456e636f646553687566666c655461626c652c0090,  -- shared.EncodeShuffleTable,
  0x0909097368617265642e506572436f6e74726f6c4c656e5461626c652c0091,  -- shared.PerControlLenTable,
  0x0909290092,  -- )
  0x0093,
  0x09096374726c735b325d203d2075696e7438286374726c20262030786666290094,  -- ctrls[2] = uint8(ctrl & 0xff)
  0x09096374726c735b335d203d2075696e7438286374726c203e3e2038290095,  -- ctrls[3] = uint8(ctrl >> 8)
  0x090973697a6542203a3d207368617265642e436f6e74726f6c42797465546f53697a6554776f286374726c290096,  -- sizeB := shared.ControlByteToSizeTwo(ctrl)
  0x0097,
  0x09096374726c203d20656e636f64652e5075743875696e74333244656c74614661737441736d280098,  -- ctrl = encode.Put8uint32DeltaFastAsm(
  0x0909096e756d735b31363a32345d2c0099,  -- nums[16:24],
  0x0909096f75745b73697a65412b73697a65423a5d2c009a,  -- out[sizeA+sizeB:],
  0x0909096e756d735b31355d2c009b,  -- nums[15],
  0x0909097368617265642e456e636f646553687566666c655461626c652c009c,  -- shared.EncodeShuffleTable,
  0x0909097368617265642e506572436f6e74726f6c4c656e5461626c652c009d,  -- shared.PerControlLenTable,
  0x090929009e,  -- )
  0x009f,
  0x09096374726c735b345d203d2075696e7438286374726c202620307866662900a0,  -- ctrls[4] = uint8(ctrl & 0xff)
  0x09096374726c735b355d203d2075696e7438286374726c203e3e20382900a1,  -- ctrls[5] = uint8(ctrl >> 8)
  0x090973697a6543203a3d207368617265642e436f6e74726f6c42797465546f53697a6554776f286374726c2900a2,  -- sizeC := shared.ControlByteToSizeTwo(ctrl)
  0x00a3,
  0x09096374726c203d20656e636f64652e5075743875696e74333244656c74614661737441736d2800a4,  -- ctrl = encode.Put8uint32DeltaFastAsm(
  0x0909096e756d735b32343a5d2c00a5,  -- nums[24:],
  0x0909096f75745b73697a65412b73697a65422b73697a65433a5d2c00a6,  -- out[sizeA+sizeB+sizeC:],
  0x0909096e756d735b32335d2c00a7,  -- nums[23],
  0x0909097368617265642e456e636f646553687566666c655461626c652c00a8,  -- shared.EncodeShuffleTable,
  0x0909097368617265642e506572436f6e74726f6c4c656e5461626c652c00a9,  -- shared.PerControlLenTable,
  0x09092900aa,  -- )
  0x00ab,
  0x09096374726c735b365d203d2075696e7438286374726c202620307866662900ac,  -- ctrls[6] = uint8(ctrl & 0xff)
  0x09096374726c735b375d203d2075696e7438286374726c203e3e20382900ad,  -- ctrls[7] = uint8(ctrl >> 8)
  0x090973697a6544203a3d207368617265642e436f6e74726f6c42797465546f53697a6554776f286374726c2900ae,  -- sizeD := shared.ControlByteToSizeTwo(ctrl)
  0x00af,
  0x09096374726c506f73202b3d203800b0,  -- ctrlPos += 8
  0x090964617461506f73202b3d2073697a6541202b2073697a6542202b2073697a6543202b2073697a654400b1,  -- dataPos += sizeA + sizeB + sizeC + sizeD
  0x090970726576203d206e756d735b33315d00b2,  -- prev = nums[31]
  0x097d00b3,  -- }
  0x00b4,
  0x09666f72203b206374726c506f73203c206374726c4c656e2d323b206374726c506f73202b3d2032207b00b5,  -- for ; ctrlPos < ctrlLen-2; ctrlPos += 2 {
  0x09096374726c203a3d20656e636f64652e5075743875696e74333244656c74614661737441736d2800b6,  -- ctrl := encode.Put8uint32DeltaFastAsm(
  0x090909696e5b656e636f6465643a5d2c00b7,  -- in[encoded:],
  0x09090973747265616d5b64617461506f733a5d2c00b8,  -- stream[dataPos:],
  0x090909707265762c00b9,  -- prev,
  0x0909097368617265642e456e636f646553687566666c655461626c652c00ba,  -- shared.EncodeShuffleTable,
  0x0909097368617265642e506572436f6e74726f6c4c656e5461626c652c00bb,  -- shared.PerControlLenTable,
  0x09092900bc,  -- )
  0x00bd,
  0x090973747265616d5b6374726c506f735d203d2075696e7438286374726c202620307866662900be,  -- stream[ctrlPos] = uint8(ctrl & 0xff)
  0x090973747265616d5b6374726c506f732b315d203d2075696e7438286374726c203e3e20382900bf,  -- stream[ctrlPos+1] = uint8(ctrl >> 8)
  0x0909656e636f646564202b3d203800c0,  -- encoded += 8
  0x090964617461506f73202b3d207368617265642e436f6e74726f6c42797465546f53697a6554776f286374726c2900c1,  -- dataPos += shared.ControlByteToSizeTwo(ctrl)
  0x090970726576203d20696e5b656e636f6465642d315d00c2,  -- prev = in[encoded-1]
  0x097d00c3,  -- }
  0x00c4,
  0x09666f72203b206374726c506f73203c206374726c4c656e3b206374726c506f73202b3d2031207b00c5,  -- for ; ctrlPos < ctrlLen; ctrlPos += 1 {
  0x09096e756d73203a3d20636f756e74202d20656e636f64656400c6,  -- nums := count - encoded
  0x09096966206e756d73203e2034207b00c7,  -- if nums > 4 {
  0x0909096e756d73203d203400c8,  -- nums = 4
  0x09097d00c9,  -- }
  0x09096374726c203a3d20656e636f64652e50757455696e74333244656c74615363616c617228696e5b656e636f6465643a5d2c2073747265616d5b64617461506f733a5d2c206e756d732c20707265762900ca,  -- ctrl := encode.PutUint32DeltaScalar(in[encoded:], stream[dataPos:], nums, prev)
  0x090973697a65203a3d207368617265642e436f6e74726f6c42797465546f53697a65286374726c2900cb,  -- size := shared.ControlByteToSize(ctrl)
  0x090973747265616d5b6374726c506f735d203d206374726c00cc,  -- stream[ctrlPos] = ctrl
  0x090973697a65202d3d2034202d206e756d7300cd,  -- size -= 4 - nums
  0x090964617461506f73202b3d2073697a6500ce,  -- dataPos += size
  0x0909656e636f646564202b3d206e756d7300cf,  -- encoded += nums
  0x090970726576203d20696e5b656e636f6465642d315d00d0,  -- prev = in[encoded-1]
  0x097d00d1,  -- }
  0x00d2,
  0x0972657475726e2073747265616d5b3a64617461506f735d00d3,  -- return stream[:dataPos]
  0x7d00d4]  -- }

/-- `/repo/pkg/stream/writer/writer_base.go`. -/
def writerBaseGo : List Nat := [
  0x2f2f202b6275696c642021616d6436340001,
  0x0002,
  0x7061636b616765207772697465720003,  -- package writer
  0x0004,
  0x66756e63205772697465416c6c4661737428696e205b5d75696e74333229205b5d62797465207b0005,  -- func WriteAllFast(in []uint32) []byte {
  0x0970616e69632822756e726561636861626c6522290006,  -- panic("unreachable")
  0x7d0007]  -- }

/-- `/repo/pkg/stream/reader/reader.go`. -/
def readerGo : List Nat := [
  0x7061636b616765207265616465720001,  -- package reader
  0x0002,
  0x696d706f727420280003,  -- import (
  0x09226769746875622e636f6d2f7468654d506174656c2f73747265616d76627974652d73696d64676f2f706b672f6465636f6465220004,  -- "github.com/theMPatel/streamvbyte-simdgo/pkg/decode"
  0x09226769746875622e636f6d2f7468654d506174656c2f73747265616d76627974652d73696d64676f2f706b672f736861726564220005,  -- "github.com/theMPatel/streamvbyte-simdgo/pkg/shared"
  0x290006,  -- )
  0x0007,
  0x636f6e737420280008,  -- const (
  0x096a756d7020202020203d2031360009,  -- jump     = 16
  0x096a756d704374726c203d206a756d70202f2034000a,  -- jumpCtrl = jump / 4
  0x29000b,  -- )
  0x000c,
  0x2f2f2052656164416c6c2077696c6c20726561642074686520656e7469726520696e7075742073747265616d20696e746f206f7574206163636f7264696e6720746f20746865000d,
  0x2f2f2053747265616d20564279746520666f726d61742e2049742077696c6c2073656c65637420746865206265737420696d706c656d656e746174696f6e20646570656e64696e67000e,
  0x2f2f206f6e207468652070726573656e6365206f66207370656369616c20686172647761726520696e737472756374696f6e732e000f,
  0x2f2f0010,
  0x2f2f204e6f74653a20497420697320796f757220726573706f6e736962696c69747920746f20656e7375726520746861742074686520696e636f6d696e6720736c69636573206172650011,
  0x2f2f20617070726f7072696174656c792073697a65642061732077656c6c20617320747261636b696e672074686520636f756e74206f6620696e74656765727320696e207468650012,
  0x2f2f2073747265616d2e0013,
  0x66756e632052656164416c6c28636f756e7420696e742c2073747265616d205b5d627974652c206f7574205b5d75696e74333229207b0014,  -- func ReadAll(count int, stream []byte, out []uint32) {
  0x096966206465636f64652e4765744d6f64652829203d3d207368617265642e46617374207b0015,  -- if decode.GetMode() == shared.Fast {
  0x090952656164416c6c4661737428636f756e742c2073747265616d2c206f7574290016,  -- ReadAllFast(count, stream, out)
  0x097d20656c7365207b0017,  -- } else {
  0x090952656164416c6c5363616c617228636f756e742c2073747265616d2c206f7574290018,  -- ReadAllScalar(count, stream, out)
  0x097d0019,  -- }
  0x7d001a,  -- }
  0x001b,
  0x2f2f2052656164416c6c44656c74612077696c6c20726561642074686520656e7469726520696e7075742073747265616d20696e746f206f7574206163636f7264696e6720746f20746865001c,
  0x2f2f2053747265616d20564279746520666f726d61742e2049742077696c6c2073656c65637420746865206265737420696d706c656d656e746174696f6e20646570656e64696e67001d,
  0x2f2f206f6e207468652070726573656e6365206f66207370656369616c20686172647761726520696e737472756374696f6e732e2049742077696c6c207265636f6e73747275637420746865001e,
  0x2f2f206f726967696e616c206e6f6e20646966666572656e7469616c6c7920656e636f6465642076616c7565732e001f,
  0x2f2f0020,
  0x2f2f204e6f74653a20497420697320796f757220726573706f6e736962696c69747920746f20656e7375726520746861742074686520696e636f6d696e6720736c69636573206172650021,
  0x2f2f20617070726f7072696174656c792073697a65642061732077656c6c20617320747261636b696e672074686520636f756e74206f6620696e74656765727320696e207468650022,
  0x2f2f2073747265616d2e0023,
  0x66756e632052656164416c6c44656c746128636f756e7420696e742c2073747265616d205b5d627974652c206f7574205b5d75696e7433322c20707265762075696e74333229207b0024,  -- func ReadAllDelta(count int, stream []byte, out []uint32, prev uint32) {
  0x096966206465636f64652e4765744d6f64652829203d3d207368617265642e46617374207b0025,  -- if decode.GetMode() == shared.Fast {
  0x090952656164416c6c44656c74614661737428636f756e742c2073747265616d2c206f75742c2070726576290026,  -- ReadAllDeltaFast(count, stream, out, prev)
  0x097d20656c7365207b0027,  -- } else {
  0x090952656164416c6c44656c74615363616c617228636f756e742c2073747265616d2c206f75742c2070726576290028,  -- ReadAllDeltaScalar(count, stream, out, prev)
  0x097d0029,  -- }
  0x7d002a,  -- }
  0x002b,
  0x2f2f2052656164416c6c5363616c61722077696c6c20726561642074686520656e7469726520696e7075742073747265616d20696e746f206f7574206163636f7264696e6720746f20746865002c,
  0x2f2f2053747265616d20564279746520666f726d61742e002d,
  0x2f2f002e,
  0x2f2f204e6f74653a20497420697320796f757220726573706f6e736962696c69747920746f20656e7375726520746861742074686520696e636f6d696e6720736c6963657320617265002f,
  0x2f2f20617070726f7072696174656c792073697a65642061732077656c6c20617320747261636b696e672074686520636f756e74206f6620696e74656765727320696e207468650030,
  0x2f2f2073747265616d2e0031,
  0x66756e632052656164416c6c5363616c617228636f756e7420696e742c2073747265616d205b5d627974652c206f7574205b5d75696e74333229207b0032,  -- func ReadAllScalar(count int, stream []byte, out []uint32) {
  0x0976617220280033,  -- var (
  0x09096374726c4c656e203d2028636f756e74202b203329202f20340034,  -- ctrlLen = (count + 3) / 4
  0x0035,
  0x090964617461506f73202020203d206374726c4c656e0036,  -- dataPos    = ctrlLen
  0x09096374726c506f73202020203d20300037,  -- ctrlPos    = 0
  0x09096465636f646564202020203d20300038,  -- decoded    = 0
  0x09096c6f776573744a756d70203d20636f756e7420265e20286a756d70202d2031290039,  -- lowestJump = count &^ (jump - 1)
  0x09096c6f7765737434202020203d20636f756e7420265e2033003a,  -- lowest4    = count &^ 3
  0x0929003b,  -- )
  0x003c,
  0x09666f72203b206465636f646564203c206c6f776573744a756d703b206465636f646564202b3d206a756d70207b003d,  -- for ; decoded < lowestJump; decoded += jump {
  0x090964617461203a3d2073747265616d5b64617461506f733a5d003e,  -- data := stream[dataPos:]
  0x09096374726c73203a3d2073747265616d5b6374726c506f73203a206374726c506f732b6a756d704374726c5d003f,  -- ctrls := stream[ctrlPos : ctrlPos+jumpCtrl]
  0x09096e756d73203a3d206f75745b6465636f646564203a206465636f6465642b6a756d705d0040,  -- nums := out[decoded : decoded+jump]
  0x0041,
  0x09096374726c203a3d206374726c735b305d0042,  -- ctrl := ctrls[0]
  0x09096465636f64652e4765743475696e7433325363616c617228646174612c206e756d732c206374726c290043,  -- decode.Get4uint32Scalar(data, nums, ctrl)
  0x090973697a6541203a3d207368617265642e436f6e74726f6c42797465546f53697a65286374726c290044,  -- sizeA := shared.ControlByteToSize(ctrl)
  0x0045,
  0x09096374726c203d206374726c735b315d0046,  -- ctrl = ctrls[1]
  0x09096465636f64652e4765743475696e7433325363616c617228646174615b73697a65413a5d2c206e756d735b343a5d2c206374726c290047,  -- decode.Get4uint32Scalar(data[sizeA:], nums[4:], ctrl)
  0x090973697a6542203a3d207368617265642e436f6e74726f6c42797465546f53697a65286374726c290048,  -- sizeB := shared.ControlByteToSize(ctrl)
  0x0049,
  0x09096374726c203d206374726c735b325d004a,  -- ctrl = ctrls[2]
  0x09096465636f64652e4765743475696e7433325363616c617228646174615b73697a65412b73697a65423a5d2c206e756d735b383a5d2c206374726c29004b,  -- decode.Get4uint32Scalar(data[sizeA+sizeB:], nums[8:], ctrl)
  0x090973697a6543203a3d207368617265642e436f6e74726f6c42797465546f53697a65286374726c29004c,  -- sizeC := shared.ControlByteToSize(ctrl)
  0x004d,
  0x09096374726c203d206374726c735b335d004e,  -- ctrl = ctrls[3]
  0x09096465636f64652e4765743475696e7433325363616c617228646174615b73697a65412b73697a65422b73697a65433a5d2c206e756d735b31323a5d2c206374726c29004f,  -- decode.Get4uint32Scalar(data[sizeA+sizeB+sizeC:], nums[12:], ctrl)
  0x090973697a6544203a3d207368617265642e436f6e74726f6c42797465546f53697a65286374726c290050,  -- sizeD := shared.ControlByteToSize(ctrl)
  0x0051,
  0x090964617461506f73202b3d2073697a6541202b2073697a6542202b2073697a6543202b2073697a65440052,  -- dataPos += sizeA + sizeB + sizeC + sizeD
  0x09096374726c506f73202b3d206a756d704374726c0053,  -- ctrlPos += jumpCtrl
  0x097d0054,  -- }
  0x0055,
  0x09666f72203b206465636f646564203c206c6f77657374343b206465636f646564202b3d2034207b0056,  -- for ; decoded < lowest4; decoded += 4 {
  0x09096374726c203a3d2073747265616d5b6374726c506f735d0057,  -- ctrl := stream[ctrlPos]
  0x09096465636f64652e4765743475696e7433325363616c61722873747265616d5b64617461506f733a5d2c206f75745b6465636f6465643a5d2c206374726c290058,  -- decode.Get4uint32Scalar(stream[dataPos:], out[decoded:], ctrl)
  0x090973697a65203a3d207368617265642e436f6e74726f6c42797465546f53697a65286374726c290059,  -- size := shared.ControlByteToSize(ctrl)
  0x090964617461506f73202b3d2073697a65005a,  -- dataPos += size
  0x09096374726c506f732b2b005b,  -- ctrlPos++
  0x097d005c,  -- }
  0x005d,
  0x096966206c6f776573743420213d20636f756e74207b005e,  -- if lowest4 != count {
  0x09096465636f64652e47657455696e7433325363616c61722873747265616d5b64617461506f733a5d2c206f75745b6465636f6465643a5d2c2073747265616d5b6374726c506f735d2c20636f756e742d6c6f776573743429005f,  -- decode.GetUint32Scalar(stream[dataPos:], out[decoded:], stream[ctrlPos], count-lowest4)
  0x097d0060,  -- }
  0x7d0061,  -- }
  0x0062,
  0x2f2f2052656164416c6c44656c74615363616c61722077696c6c20726561642074686520656e7469726520696e7075742073747265616d20696e746f206f7574206163636f7264696e6720746f207468650063,
  0x2f2f2053747265616d20564279746520666f726d61742e2049742077696c6c207265636f6e73747275637420746865206f726967696e616c206e6f6e20646966666572656e7469616c6c790064,
  0x2f2f20656e636f6465642076616c7565732e0065,
  0x2f2f0066,
  0x2f2f204e6f74653a20497420697320796f757220726573706f6e736962696c69747920746f20656e7375726520746861742074686520696e636f6d696e6720736c69636573206172650067,
  0x2f2f20617070726f7072696174656c792073697a65642061732077656c6c20617320747261636b696e672074686520636f756e74206f6620696e74656765727320696e207468650068,
  0x2f2f2073747265616d2e0069,
  0x66756e632052656164416c6c44656c74615363616c617228636f756e7420696e742c2073747265616d205b5d627974652c206f7574205b5d75696e7433322c20707265762075696e74333229207b006a,  -- func ReadAllDeltaScalar(count int, stream []byte, out []uint32, prev uint32) {
  0x097661722028006b,  -- var (
  0x09096374726c4c656e203d2028636f756e74202b203329202f2034006c,  -- ctrlLen = (count + 3) / 4
  0x006d,
  0x090964617461506f73202020203d206374726c4c656e006e,  -- dataPos    = ctrlLen
  0x09096374726c506f73202020203d2030006f,  -- ctrlPos    = 0
  0x09096465636f646564202020203d20300070,  -- decoded    = 0
  0x09096c6f776573744a756d70203d20636f756e7420265e20286a756d70202d2031290071,  -- lowestJump = count &^ (jump - 1)
  0x09096c6f7765737434202020203d20636f756e7420265e20330072,  -- lowest4    = count &^ 3
  0x09290073,  -- )
  0x0074,
  0x09666f72203b206465636f646564203c206c6f776573744a756d703b206465636f646564202b3d206a756d70207b0075,  -- for ; decoded < lowestJump; decoded += jump {
  0x090964617461203a3d2073747265616d5b64617461506f733a5d0076,  -- data := stream[dataPos:]
  0x09096374726c73203a3d2073747265616d5b6374726c506f73203a206374726c506f732b6a756d704374726c5d0077,  -- ctrls := stream[ctrlPos : ctrlPos+jumpCtrl]
  0x09096e756d73203a3d206f75745b6465636f646564203a206465636f6465642b6a756d705d0078,  -- nums := out[decoded : decoded+jump]
  0x0079,
  0x09096374726c203a3d206374726c735b305d007a,  -- ctrl := ctrls[0]
  0x09096465636f64652e4765743475696e74333244656c74615363616c617228646174612c206e756d732c206374726c2c207072657629007b,  -- decode.Get4uint32DeltaScalar(data, nums, ctrl, prev)
  0x090973697a6541203a3d207368617265642e436f6e74726f6c42797465546f53697a65286374726c29007c,  -- sizeA := shared.ControlByteToSize(ctrl)
  0x007d,
  0x09096374726c203d206374726c735b315d007e,  -- ctrl = ctrls[1]
  0x09096465636f64652e4765743475696e74333244656c74615363616c617228646174615b73697a65413a5d2c206e756d735b343a5d2c206374726c2c206e756d735b335d29007f,  -- decode.Get4uint32DeltaScalar(data[sizeA:], nums[4:], ctrl, nums[3])
  0x090973697a6542203a3d207368617265642e436f6e74726f6c42797465546f53697a65286374726c290080,  -- sizeB := shared.ControlByteToSize(ctrl)
  0x0081,
  0x09096374726c203d206374726c735b325d0082,  -- ctrl = ctrls[2]
  0x09096465636f64652e4765743475696e74333244656c74615363616c617228646174615b73697a65412b73697a65423a5d2c206e756d735b383a5d2c206374726c2c206e756d735b375d290083,  -- decode.Get4uint32DeltaScalar(data[sizeA+sizeB:], nums[8:], ctrl, nums[7])
  0x090973697a6543203a3d207368617265642e436f6e74726f6c42797465546f53697a65286374726c290084,  -- sizeC := shared.ControlByteToSize(ctrl)
  0x0085,
  0x09096374726c203d206374726c735b335d0086,  -- ctrl = ctrls[3]
  0x09096465636f64652e4765743475696e74333244656c74615363616c617228646174615b73697a65412b73697a65422b73697a65433a5d2c206e756d735b31323a5d2c206374726c2c206e756d735b31315d290087,  -- decode.Get4uint32DeltaScalar(data[sizeA+sizeB+sizeC:], nums[12:], ctrl, nums[11])
  0x090973697a6544203a3d207368617265642e436f6e74726f6c42797465546f53697a65286374726c290088,  -- sizeD := shared.ControlByteToSize(ctrl)
  0x0089,
  0x090964617461506f73202b3d2073697a6541202b2073697a6542202b2073697a6543202b2073697a6544008a,  -- dataPos += sizeA + sizeB + sizeC + sizeD
  0x09096374726c506f73202b3d206a756d704374726c008b,  -- ctrlPos += jumpCtrl
  0x090970726576203d206e756d735b31355d008c,  -- prev = nums[15]
  0x097d008d,  -- }
  0x008e,
  0x09666f72203b206465636f646564203c206c6f77657374343b206465636f646564202b3d2034207b008f,  -- for ; decoded < lowest4; decoded += 4 {
  0x09096374726c203a3d2073747265616d5b6374726c506f735d0090,  -- ctrl := stream[ctrlPos]
  0x09096465636f64652e4765743475696e74333244656c74615363616c61722873747265616d5b64617461506f733a5d2c206f75745b6465636f6465643a5d2c206374726c2c2070726576290091,  -- decode.Get4uint32DeltaScalar(stream[dataPos:], out[decoded:], ctrl, prev)
  0x090973697a65203a3d207368617265642e436f6e74726f6c42797465546f53697a65286374726c290092,  -- size := shared.ControlByteToSize(ctrl)
  0x090964617461506f73202b3d2073697a650093,  -- dataPos += size
  0x09096374726c506f732b2b0094,  -- ctrlPos++
  0x090970726576203d206f75745b6465636f6465642b335d0095,  -- prev = out[decoded+3]
  0x097d0096,  -- }
  0x0097,
  0x096966206c6f776573743420213d20636f756e74207b0098,  -- if lowest4 != count {
  0x09096465636f64652e47657455696e74333244656c74615363616c61722873747265616d5b64617461506f733a5d2c206f75745b6465636f6465643a5d2c2073747265616d5b6374726c506f735d2c20636f756e742d6c6f77657374342c2070726576290099,  -- decode.GetUint32DeltaScalar(stream[dataPos:], out[decoded:], stream[ctrlPos], count-lowest4, prev)
  0x097d009a,  -- }
  0x7d009b]  -- }

/-- `/repo/pkg/stream/reader/reader_amd64.go`. -/
def readerAmd64Go : List Nat := [
  0x2f2f202b6275696c6420616d6436340001,
  0x0002,
  0x7061636b616765207265616465720003,  -- package reader
  0x0004,
  0x696d706f727420280005,  -- import (
  0x09226769746875622e636f6d2f7468654d506174656c2f73747265616d76627974652d73696d64676f2f706b672f6465636f6465220006,  -- "github.com/theMPatel/streamvbyte-simdgo/pkg/decode"
  0x09226769746875622e636f6d2f7468654d506174656c2f73747265616d76627974652d73696d64676f2f706b672f736861726564220007,  -- "github.com/theMPatel/streamvbyte-simdgo/pkg/shared"
  0x290008,  -- )
  0x0009,
  0x2f2f2052656164416c6c466173742077696c6c20726561642074686520656e7469726520696e7075742073747265616d20696e746f206f7574206163636f7264696e6720746f20746865000a,
  0x2f2f2053747265616d20564279746520666f726d6174207573696e67207370656369616c20686172647761726520696e737472756374696f6e732e000b,
  0x2f2f000c,
  0x2f2f204e6f74653a20497420697320796f757220726573706f6e736962696c69747920746f20656e7375726520746861742074686520696e636f6d696e6720736c6963657320617265000d,
  0x2f2f20617070726f7072696174656c792073697a65642061732077656c6c20617320747261636b696e672074686520636f756e74206f6620696e74656765727320696e20746865000e,
  0x2f2f2073747265616d2e000f,
  0x66756e632052656164416c6c4661737428636f756e7420696e742c2073747265616d205b5d627974652c206f7574205b5d75696e74333229207b0010,  -- func ReadAllFast(count int, stream []byte, out []uint32) {
  0x0976617220280011,  -- var (
  0x09096374726c506f73203d20300012,  -- ctrlPos = 0
  0x09096465636f646564203d20300013,  -- decoded = 0
  0x090964617461506f73203d2028636f756e74202b203329202f20340014,  -- dataPos = (count + 3) / 4
  0x09096374726c4c656e203d2064617461506f730015,  -- ctrlLen = dataPos
  0x09092f2f206c6f77657374333220697320746865206c696d697420666f722074686520636f756e74206f6620696e746567657273207765276c6c207265616420696e0016,
  0x09092f2f2062756c6b203820617420612074696d65206469726563746c792066726f6d2074686520696e7075742073747265616d2e20576520737562747261637420330017,
  0x09092f2f20686572652073696e6365207765206c6f616420313620627974657320617420612074696d6520696e2074686520617373656d626c7920636f64652e2049660018,
  0x09092f2f20796f7520617474656d707420746f206c6f616420746865206c6173742066657720636f6e74726f6c20627974657320776f727468206f6620646174612c0019,
  0x09092f2f206974277320706f737369626c6520746865726520776f6e277420626520656e6f75676820627974657320696e2074686520646174612073747265616d20746f001a,
  0x09092f2f20737570706f72742069742c2077686963682063616e206c65616420746f206c6f6164696e672066726f6d20756e696e697469616c697a6564206d656d6f72792e001b,
  0x09092f2f001c,
  0x09092f2f205b205f205f205f205f207c205f205f205f205f207c205f205f205f205f207c205f205f205f205f205d001d,
  0x09092f2f2020202020202020202020202020202020202020776f726b732066696e65202d2d5e205e2d2d20626164207468696e67732068657265001e,
  0x09092f2f001f,
  0x09092f2f20496d6167696e6520746865206c6173742067726f7570206f6620313620696e207468652061626f766520617272617920697320616c6c20656e636f64656420776974680020,
  0x09092f2f20342062797465732e204465636f64696e6720746865206669727374203420696e74656765727320696e20746861742067726f75702077696c6c20776f726b2066696e652c0021,
  0x09092f2f2073696e63652069742077696c6c206c6f616420746865206c61737420332028756e75736564292062797465732e20486f77657665722c207768656e20617474656d7074696e670022,
  0x09092f2f20746f206465636f646520746865206c6173742074687265652067726f757073206f6620342c2065616368206c6f61642077696c6c206e65656420616e2065787472610023,
  0x09092f2f20312c20322c206f7220332062797465732028726573706563746976656c792920696e206f7264657220746f20626520636f6e7369646572656420736166652e0024,
  0x09096c6f776573743332203d2028286374726c4c656e202d203329202a20342920265e2033310025,  -- lowest32 = ((ctrlLen - 3) * 4) &^ 31
  0x09290026,  -- )
  0x0027,
  0x09666f72203b206465636f646564203c206c6f7765737433323b206465636f646564202b3d203332207b0028,  -- for ; decoded < lowest32; decoded += 32 {
  0x090964617461203a3d2073747265616d5b64617461506f733a5d0029,  -- data := stream[dataPos:]
  0x09096374726c73203a3d2073747265616d5b6374726c506f73203a206374726c506f732b385d002a,  -- ctrls := stream[ctrlPos : ctrlPos+8]
  0x09096e756d73203a3d206f75745b6465636f646564203a206465636f6465642b33325d002b,  -- nums := out[decoded : decoded+32]
  0x002c,
  0x09096374726c203a3d2075696e743136286374726c735b305d29207c2075696e743136286374726c735b315d293c3c38002d,  -- ctrl := uint16(ctrls[0]) | uint16(ctrls[1])<<8
  0x09096465636f64652e4765743875696e7433324661737441736d28002e,  -- decode.Get8uint32FastAsm(
  0x090909646174612c002f,  -- data,
  0x0909096e756d732c0030,  -- nums,
  0x0909096374726c2c0031,  -- ctrl,
  0x0909097368617265642e4465636f646553687566666c655461626c652c0032,  -- shared.DecodeShuffleTable,
  0x0909097368617265642e506572436f6e74726f6c4c656e5461626c652c0033,  -- shared.PerControlLenTable,
  0x0909290034,  -- )
  0x090973697a6541203a3d207368617265642e436f6e74726f6c42797465546f53697a65286374726c735b305d29202b207368617265642e436f6e74726f6c42797465546f53697a65286374726c735b315d290035,  -- sizeA := shared.ControlByteToSize(ctrls[0]) + shared.ControlByteToSize(ctrls[1])
  0x0036,
  0x09096374726c203d2075696e743136286374726c735b325d29207c2075696e743136286374726c735b335d293c3c380037,  -- ctrl = uint16(ctrls[2]) | uint16(ctrls[3])<<8
  0x09096465636f64652e4765743875696e7433324661737441736d280038,  -- decode.Get8uint32FastAsm(
  0x090909646174615b73697a65413a5d2c0039,  -- data[sizeA:],
  0x0909096e756d735b383a5d2c003a,  -- nums[8:],
  0x0909096374726c2c003b,  -- ctrl,
  0x0909097368617265642e4465636f646553687566666c655461626c652c003c,  -- shared.DecodeShuffleTable,
  0x0909097368617265642e506572436f6e74726f6c4c656e5461626c652c003d,  -- shared.PerControlLenTable,
  0x090929003e,  -- )
  0x090973697a6542203a3d207368617265642e436f6e74726f6c42797465546f53697a65286374726c735b325d29202b207368617265642e436f6e74726f6c42797465546f53697a65286374726c735b335d29003f,  -- sizeB := shared.ControlByteToSize(ctrls[2]) + shared.ControlByteToSize(ctrls[3])
  0x0040,
  0x09096374726c203d2075696e743136286374726c735b345d29207c2075696e743136286374726c735b355d293c3c380041,  -- ctrl = uint16(ctrls[4]) | uint16(ctrls[5])<<8
  0x09096465636f64652e4765743875696e7433324661737441736d280042,  -- decode.Get8uint32FastAsm(
  0x090909646174615b73697a65412b73697a65423a5d2c0043,  -- data[sizeA+sizeB:],
  0x0909096e756d735b31363a5d2c0044,  -- nums[16:],
  0x0909096374726c2c0045,  -- ctrl,
  0x0909097368617265642e4465636f646553687566666c655461626c652c0046,  -- shared.DecodeShuffleTable,
  0x0909097368617265642e506572436f6e74726f6c4c656e5461626c652c0047,  -- shared.PerControlLenTable,
  0x0909290048,  -- )
  0x090973697a6543203a3d207368617265642e436f6e74726f6c42797465546f53697a65286374726c735b345d29202b207368617265642e436f6e74726f6c42797465546f53697a65286374726c735b355d290049,  -- sizeC := shared.ControlByteToSize(ctrls[4]) + shared.ControlByteToSize(ctrls[5])
  0x004a,
  0x09096374726c203d2075696e743136286374726c735b365d29207c2075696e743136286374726c735b375d293c3c38004b,  -- ctrl = uint16(ctrls[6]) | uint16(ctrls[7])<<8
  0x09096465636f64652e4765743875696e7433324661737441736d28004c,  -- decode.Get8uint32FastAsm(
  0x090909646174615b73697a65412b73697a65422b73697a65433a5d2c004d,  -- data[sizeA+sizeB+sizeC:],
  0x0909096e756d735b32343a5d2c004e,  -- nums[24:],
  0x0909096374726c2c004f,  -- ctrl,
  0x0909097368617265642e4465636f646553687566666c655461626c652c0050,  -- shared.DecodeShuffleTable,
  0x0909097368617265642e506572436f6e74726f6c4c656e5461626c652c0051,  -- shared.PerControlLenTable,
  0x0909290052,  -- )
  0x090973697a6544203a3d207368617265642e436f6e74726f6c42797465546f53697a65286374726c735b365d29202b207368617265642e436f6e74726f6c42797465546f53697a65286374726c735b375d290053,  -- sizeD := shared.ControlByteToSize(ctrls[6]) + shared.ControlByteToSize(ctrls[7])
  0x0054,
  0x090964617461506f73202b3d2073697a6541202b2073697a6542202b2073697a6543202b2073697a65440055,  -- dataPos += sizeA + sizeB + sizeC + sizeD
  0x09096374726c506f73202b3d20380056,  -- ctrlPos += 8
  0x097d0057,  -- }
  0x0058,
  0x092f2f204d757374206265207374726963746c79206c657373207468616e20746865206c617374203420626c6f636b73206f6620696e7465676572732c2073696e63652077652063616e277420736166656c790059,
  0x092f2f206465636f64652038206966206f7572206374726c20706f732073746172747320617420746865206669727374203420696e2074686520626c6f636b2e005a,
  0x09666f72203b206374726c506f73203c206374726c4c656e2d343b206374726c506f73202b3d2032207b005b,  -- for ; ctrlPos < ctrlLen-4; ctrlPos += 2 {
  0x09096374726c203a3d2075696e7431362873747265616d5b6374726c506f735d29207c2075696e7431362873747265616d5b6374726c506f732b315d293c3c38005c,  -- ctrl := uint16(stream[ctrlPos]) | uint16(stream[ctrlPos+1])<<8
  0x09096465636f64652e4765743875696e7433324661737441736d28005d,  -- decode.Get8uint32FastAsm(
  0x09090973747265616d5b64617461506f733a5d2c005e,  -- stream[dataPos:],
  0x0909096f75745b6465636f6465643a5d2c005f,  -- out[decoded:],
  0x0909096374726c2c0060,  -- ctrl,
  0x0909097368617265642e4465636f646553687566666c655461626c652c0061,  -- shared.DecodeShuffleTable,
  0x0909097368617265642e506572436f6e74726f6c4c656e5461626c652c0062,  -- shared.PerControlLenTable,
  0x0909290063,  -- )
  0x090964617461506f73202b3d207368617265642e436f6e74726f6c42797465546f53697a652873747265616d5b6374726c506f735d29202b207368617265642e436f6e74726f6c42797465546f53697a652873747265616d5b6374726c506f732b315d290064,  -- dataPos += shared.ControlByteToSize(stream[ctrlPos]) + shared.ControlByteToSize(stream[ctrlPos+1])
  0x09096465636f646564202b3d20380065,  -- decoded += 8
  0x097d0066,  -- }
  0x0067,
  0x09666f72203b206374726c506f73203c206374726c4c656e3b206374726c506f73202b3d2031207b0068,  -- for ; ctrlPos < ctrlLen; ctrlPos += 1 {
  0x09096e756d73203a3d20636f756e74202d206465636f6465640069,  -- nums := count - decoded
  0x09096966206e756d73203e2034207b006a,  -- if nums > 4 {
  0x0909096e756d73203d2034006b,  -- nums = 4
  0x09097d006c,  -- }
  0x090964617461506f73202b3d206465636f64652e47657455696e7433325363616c617228006d,  -- dataPos += decode.GetUint32Scalar(
  0x09090973747265616d5b64617461506f733a5d2c006e,  -- stream[dataPos:],
  0x0909096f75745b6465636f6465643a5d2c006f,  -- out[decoded:],
  0x09090973747265616d5b6374726c506f735d2c0070,  -- stream[ctrlPos],
  0x0909096e756d732c0071,  -- nums,
  0x0909290072,  -- )
  0x09096465636f646564202b3d206e756d730073,  -- decoded += nums
  0x097d0074,  -- }
  0x7d0075,  -- }
  0x0076,
  0x2f2f2052656164416c6c44656c7461466173742077696c6c20726561642074686520656e7469726520696e7075742073747265616d20696e746f206f7574206163636f7264696e6720746f207468650077,
  0x2f2f2053747265616d20564279746520666f726d6174207573696e67207370656369616c20686172647761726520696e737472756374696f6e732e2049742077696c6c207265636f6e7374727563740078,
  0x2f2f20746865206f726967696e616c206e6f6e20646966666572656e7469616c6c7920656e636f6465642076616c7565732e0079,
  0x2f2f007a,
  0x2f2f204e6f74653a20497420697320796f757220726573706f6e736962696c69747920746f20656e7375726520746861742074686520696e636f6d696e6720736c6963657320617265007b,
  0x2f2f20617070726f7072696174656c792073697a65642061732077656c6c20617320747261636b696e672074686520636f756e74206f6620696e74656765727320696e20746865007c,
  0x2f2f2073747265616d2e007d,
  0x66756e632052656164416c6c44656c74614661737428636f756e7420696e742c2073747265616d205b5d627974652c206f7574205b5d75696e7433322c20707265762075696e74333229207b007e,  -- func ReadAllDeltaFast(count int, stream []byte, out []uint32, prev uint32) {
  0x097661722028007f,  -- var (
  0x09096374726c506f73203d20300080,  -- ctrlPos = 0
  0x09096465636f646564203d20300081,  -- decoded = 0
  0x090964617461506f73203d2028636f756e74202b203329202f20340082,  -- dataPos = (count + 3) / 4
  0x09096374726c4c656e203d2064617461506f730083,  -- ctrlLen = dataPos
  0x09092f2f206c6f77657374333220697320746865206c696d697420666f722074686520636f756e74206f6620696e746567657273207765276c6c207265616420696e0084,
  0x09092f2f2062756c6b203820617420612074696d65206469726563746c792066726f6d2074686520696e7075742073747265616d2e20576520737562747261637420330085,
  0x09092f2f20686572652073696e6365207765206c6f616420313620627974657320617420612074696d6520696e2074686520617373656d626c7920636f64652e2049660086,
  0x09092f2f20796f7520617474656d707420746f206c6f616420746865206c6173742066657720636f6e74726f6c20627974657320776f727468206f6620646174612c0087,
  0x09092f2f206974277320706f737369626c6520746865726520776f6e277420626520656e6f75676820627974657320696e2074686520646174612073747265616d20746f0088,
  0x09092f2f20737570706f72742069742c2077686963682063616e206c65616420746f206c6f6164696e672066726f6d20756e696e697469616c697a6564206d656d6f72792e0089,
  0x09092f2f008a,
  0x09092f2f205b205f205f205f205f207c205f205f205f205f207c205f205f205f205f207c205f205f205f205f205d008b,
  0x09092f2f2020202020202020202020202020202020202020776f726b732066696e65202d2d5e205e2d2d20626164207468696e67732068657265008c,
  0x09092f2f008d,
  0x09092f2f20496d6167696e6520746865206c6173742067726f7570206f6620313620696e207468652061626f766520617272617920697320616c6c20656e636f6465642077697468008e,
  0x09092f2f20342062797465732e204465636f64696e6720746865206669727374203420696e74656765727320696e20746861742067726f75702077696c6c20776f726b2066696e652c008f,
  0x09092f2f2073696e63652069742077696c6c206c6f616420746865206c61737420332028756e75736564292062797465732e20486f77657665722c207768656e20617474656d7074696e670090,
  0x09092f2f20746f206465636f646520746865206c6173742074687265652067726f757073206f6620342c2065616368206c6f61642077696c6c206e65656420616e2065787472610091,
  0x09092f2f20312c20322c206f7220332062797465732028726573706563746976656c792920696e206f7264657220746f20626520636f6e7369646572656420736166652e0092,
  0x09096c6f776573743332203d2028286374726c4c656e202d203329202a20342920265e2033310093,  -- lowest32 = ((ctrlLen - 3) * 4) &^ 31
  0x09290094,  -- )
  0x0095,
  0x09666f72203b206465636f646564203c206c6f7765737433323b206465636f646564202b3d203332207b0096,  -- for ; decoded < lowest32; decoded += 32 {
  0x090964617461203a3d2073747265616d5b64617461506f733a5d0097,  -- data := stream[dataPos:]
  0x09096374726c73203a3d2073747265616d5b6374726c506f73203a206374726c506f732b385d0098,  -- ctrls := stream[ctrlPos : ctrlPos+8]
  0x09096e756d73203a3d206f75745b6465636f646564203a206465636f6465642b33325d0099,  -- nums := out[decoded : decoded+32]
  0x009a,
  0x09096374726c203a3d2075696e743136286374726c735b305d29207c2075696e743136286374726c735b315d293c3c38009b,  -- ctrl := uint16(ctrls[0]) | uint16(ctrls[1])<<8
  0x09096465636f64652e4765743875696e74333244656c74614661737441736d28009c,  -- decode.Get8uint32DeltaFastAsm(
  0x090909646174612c009d,  -- data,
  0x0909096e756d732c009e,  -- nums,
  0x0909096374726c2c009f,  -- ctrl,
  0x090909707265762c00a0,  -- prev,
  0x0909097368617265642e4465636f646553687566666c655461626c652c00a1,  -- shared.DecodeShuffleTable,
  0x0909097368617265642e506572436f6e74726f6c4c656e5461626c652c00a2,  -- shared.PerControlLenTable,
  0x09092900a3,  -- )
  0x090973697a6541203a3d207368617265642e436f6e74726f6c42797465546f53697a65286374726c735b305d29202b207368617265642e436f6e74726f6c42797465546f53697a65286374726c735b315d2900a4,  -- sizeA := shared.ControlByteToSize(ctrls[0]) + shared.ControlByteToSize(ctrls[1])
  0x00a5,
  0x09096374726c203d2075696e743136286374726c735b325d29207c2075696e743136286374726c735b335d293c3c3800a6,  -- ctrl = uint16(ctrls[2]) | uint16(ctrls[3])<<8
  0x09096465636f64652e4765743875696e74333244656c74614661737441736d2800a7,  -- decode.Get8uint32DeltaFastAsm(
  0x090909646174615b73697a65413a5d2c00a8,  -- data[sizeA:],
  0x0909096e756d735b383a5d2c00a9,  -- nums[8:],
  0x0909096374726c2c00aa,  -- ctrl,
  0x0909096e756d735b375d2c00ab,  -- nums[7],
  0x0909097368617265642e4465636f646553687566666c655461626c652c00ac,  -- shared.DecodeShuffleTable,
  0x0909097368617265642e506572436f6e74726f6c4c656e5461626c652c00ad,  -- shared.PerControlLenTable,
  0x09092900ae,  -- )
  0x090973697a6542203a3d207368617265642e436f6e74726f6c42797465546f53697a65286374726c735b325d29202b207368617265642e436f6e74726f6c42797465546f53697a65286374726c735b335d2900af,  -- sizeB := shared.ControlByteToSize(ctrls[2]) + shared.ControlByteToSize(ctrls[3])
  0x00b0,
  0x09096374726c203d2075696e743136286374726c735b345d29207c2075696e743136286374726c735b355d293c3c3800b1,  -- ctrl = uint16(ctrls[4]) | uint16(ctrls[5])<<8
  0x09096465636f64652e4765743875696e74333244656c74614661737441736d2800b2,  -- decode.Get8uint32DeltaFastAsm(
  0x090909646174615b73697a65412b73697a65423a5d2c00b3,  -- data[sizeA+sizeB:],
  0x0909096e756d735b31363a5d2c00b4,  -- nums[16:],
  0x0909096374726c2c00b5,  -- ctrl,
  0x0909096e756d735b31355d2c00b6,  -- nums[15],
  0x0909097368617265642e4465636f646553687566666c655461626c652c00b7,  -- shared.DecodeShuffleTable,
  0x0909097368617265642e506572436f6e74726f6c4c656e5461626c652c00b8,  -- shared.PerControlLenTable,
  0x09092900b9,  -- )
  0x090973697a6543203a3d207368617265642e436f6e74726f6c42797465546f53697a65286374726c735b345d29202b207368617265642e436f6e74726f6c42797465546f53697a65286374726c735b355d2900ba,  -- sizeC := shared.ControlByteToSize(ctrls[4]) + shared.ControlByteToSize(ctrls[5])
  0x00bb,
  0x09096374726c203d2075696e743136286374726c735b365d29207c2075696e743136286374726c735b375d293c3c3800bc,  -- ctrl = uint16(ctrls[6]) | uint16(ctrls[7])<<8
  0x09096465636f64652e4765743875696e74333244656c74614661737441736d2800bd,  -- decode.Get8uint32DeltaFastAsm(
  0x090909646174615b73697a65412b73697a65422b73697a65433a5d2c00be,  -- data[sizeA+sizeB+sizeC:],
  0x0909096e756d735b32343a5d2c00bf,  -- nums[24:],
  0x0909096374726c2c00c0,  -- ctrl,
  0x0909096e756d735b32335d2c00c1,  -- nums[23],
  0x0909097368617265642e4465636f646553687566666c655461626c652c00c2,  -- shared.DecodeShuffleTable,
  0x0909097368617265642e506572436f6e74726f6c4c656e5461626c652c00c3,  -- shared.PerControlLenTable,
  0x09092900c4,  -- )
  0x090973697a6544203a3d207368617265642e436f6e74726f6c42797465546f53697a65286374726c735b365d29202b207368617265642e436f6e74726f6c42797465546f53697a65286374726c735b375d2900c5,  -- sizeD := shared.ControlByteToSize(ctrls[6]) + shared.ControlByteToSize(ctrls[7])
  0x00c6,
  0x090964617461506f73202b3d2073697a6541202b2073697a6542202b2073697a6543202b2073697a654400c7,  -- dataPos += sizeA + sizeB + sizeC + sizeD
  0x09096374726c506f73202b3d203800c8,  -- ctrlPos += 8
  0x090970726576203d206e756d735b33315d00c9,  -- prev = nums[31]
  0x097d00ca,  -- }
  0x00cb,
  0x092f2f204d757374206265207374726963746c79206c657373207468616e20746865206c617374203420626c6f636b73206f6620696e7465676572732c2073696e63652077652063616e277420736166656c7900cc,
  0x092f2f206465636f64652038206966206f7572206374726c20706f732073746172747320617420746865206669727374203420696e2074686520626c6f636b2e00cd,
  0x09666f72203b206374726c506f73203c206374726c4c656e2d343b206374726c506f73202b3d2032207b00ce,  -- for ; ctrlPos < ctrlLen-4; ctrlPos += 2 {
  0x09096374726c203a3d2075696e7431362873747265616d5b6374726c506f735d29207c2075696e7431362873747265616d5b6374726c506f732b315d293c3c3800cf,  -- ctrl := uint16(stream[ctrlPos]) | uint16(stream[ctrlPos+1])<<8
  0x09096465636f64652e4765743875696e74333244656c74614661737441736d2800d0,  -- decode.Get8uint32DeltaFastAsm(
  0x09090973747265616d5b64617461506f733a5d2c00d1,  -- stream[dataPos:],
  0x0909096f75745b6465636f6465643a5d2c00d2,  -- out[decoded:],
  0x0909096374726c2c00d3,  -- ctrl,
  0x090909707265762c00d4,  -- prev,
  0x0909097368617265642e4465636f646553687566666c655461626c652c00d5,  -- shared.DecodeShuffleTable,
  0x0909097368617265642e506572436f6e74726f6c4c656e5461626c652c00d6,  -- shared.PerControlLenTable,
  0x09092900d7,  -- )
  0x090964617461506f73202b3d207368617265642e436f6e74726f6c42797465546f53697a652873747265616d5b6374726c506f735d29202b207368617265642e436f6e74726f6c42797465546f53697a652873747265616d5b6374726c506f732b315d2900d8,  -- dataPos += shared.ControlByteToSize(stream[ctrlPos]) + shared.ControlByteToSize(stream[ctrlPos+1])
  0x09096465636f646564202b3d203800d9,  -- decoded += 8
  0x090970726576203d206f75745b6465636f6465642d315d00da,  -- prev = out[decoded-1]
  0x097d00db,  -- }
  0x00dc,
  0x09666f72203b206374726c506f73203c206374726c4c656e3b206374726c506f73202b3d2031207b00dd,  -- for ; ctrlPos < ctrlLen; ctrlPos += 1 {
  0x09096e756d73203a3d20636f756e74202d206465636f64656400de,  -- nums := count - decoded
  0x09096966206e756d73203e2034207b00df,  -- if nums > 4 {
  0x0909096e756d73203d203400e0,  -- nums = 4
  0x09097d00e1,  -- }
  0x090964617461506f73202b3d206465636f64652e47657455696e74333244656c74615363616c61722800e2,  -- dataPos += decode.GetUint32DeltaScalar(
  0x09090973747265616d5b64617461506f733a5d2c00e3,  -- stream[dataPos:],
  0x0909096f75745b6465636f6465643a5d2c00e4,  -- out[decoded:],
  0x09090973747265616d5b6374726c506f735d2c00e5,  -- stream[ctrlPos],
  0x0909096e756d732c00e6,  -- nums,
  0x090909707265762c00e7,  -- prev,
  0x09092900e8,  -- )
  0x09096465636f646564202b3d206e756d7300e9,  -- decoded += nums
  0x090970726576203d206f75745b6465636f6465642d315d00ea,  -- prev = out[decoded-1]
  0x097d00eb,  -- }
  0x7d00ec]  -- }

/-- `/repo/pkg/stream/reader/reader_base.go`. -/
def readerBaseGo : List Nat := [
  0x2f2f202b6275696c642021616d6436340001,
  0x0002,
  0x7061636b616765207265616465720003,  -- package reader
  0x0004,
  0x66756e632052656164416c6c4661737428636f756e7420696e742c2073747265616d205b5d627974652c206f7574205b5d75696e74333229207b0005,  -- func ReadAllFast(count int, stream []byte, out []uint32) {
  0x0970616e69632822756e726561636861626c6522290006,  -- panic("unreachable")
  0x7d0007]  -- }

/-- `/repo/pkg/util/varint.go`. -/
def varintGo : List Nat := [
  0x7061636b616765207574696c0001,  -- package util
  0x0002,
  0x696d706f72742022656e636f64696e672f62696e617279220003,  -- import "encoding/binary"
  0x0004,
  0x66756e6320507574566172696e74286e756d73205b5d75696e7433322c206f7574205b5d627974652920696e74207b0005,  -- func PutVarint(nums []uint32, out []byte) int {
  0x09706f73203a3d20300006,  -- pos := 0
  0x09666f722069203a3d2072616e6765206e756d73207b0007,  -- for i := range nums {
  0x090973697a65203a3d2062696e6172792e50757455766172696e74286f75745b706f733a5d2c2075696e743634286e756d735b695d29290008,  -- size := binary.PutUvarint(out[pos:], uint64(nums[i]))
  0x0909706f73202b3d2073697a650009,  -- pos += size
  0x097d000a,  -- }
  0x000b,
  0x0972657475726e20706f73000c,  -- return pos
  0x7d000d,  -- }
  0x000e,
  0x66756e6320476574566172696e742864617461205b5d627974652c206f7574205b5d75696e7433322920696e74207b000f,  -- func GetVarint(data []byte, out []uint32) int {
  0x09706f73203a3d20300010,  -- pos := 0
  0x0969203a3d20300011,  -- i := 0
  0x09666f7220706f73203c206c656e286461746129207b0012,  -- for pos < len(data) {
  0x09096e756d2c2072656164203a3d2062696e6172792e55766172696e7428646174615b706f733a5d290013,  -- num, read := binary.Uvarint(data[pos:])
  0x0909706f73202b3d20726561640014,  -- pos += read
  0x09096f75745b695d203d2075696e743332286e756d290015,  -- out[i] = uint32(num)
  0x0909692b2b0016,  -- i++
  0x097d0017,  -- }
  0x0972657475726e20706f730018,  -- return pos
  0x7d0019,  -- }
  0x001a,
  0x66756e632050757444656c7461566172696e74286e756d73205b5d75696e7433322c206f7574205b5d627974652c20707265762075696e7433322920696e74207b001b,  -- func PutDeltaVarint(nums []uint32, out []byte, prev uint32) int {
  0x09706f73203a3d2030001c,  -- pos := 0
  0x09666f722069203a3d2072616e6765206e756d73207b001d,  -- for i := range nums {
  0x090973697a65203a3d2062696e6172792e50757455766172696e74286f75745b706f733a5d2c2075696e743634286e756d735b695d2d707265762929001e,  -- size := binary.PutUvarint(out[pos:], uint64(nums[i]-prev))
  0x0909706f73202b3d2073697a65001f,  -- pos += size
  0x090970726576203d206e756d735b695d0020,  -- prev = nums[i]
  0x097d0021,  -- }
  0x0022,
  0x0972657475726e20706f730023,  -- return pos
  0x7d0024,  -- }
  0x0025,
  0x66756e632047657444656c7461566172696e7428696e205b5d627974652c206f7574205b5d75696e7433322c20707265762075696e7433322920696e74207b0026,  -- func GetDeltaVarint(in []byte, out []uint32, prev uint32) int {
  0x09706f73203a3d20300027,  -- pos := 0
  0x0969203a3d20300028,  -- i := 0
  0x09666f7220706f73203c206c656e28696e29207b0029,  -- for pos < len(in) {
  0x09096e756d2c2073697a65203a3d2062696e6172792e55766172696e7428696e5b706f733a5d29002a,  -- num, size := binary.Uvarint(in[pos:])
  0x0909706f73202b3d2073697a65002b,  -- pos += size
  0x0909726573203a3d2075696e743332286e756d29202b2070726576002c,  -- res := uint32(num) + prev
  0x09096f75745b695d203d20726573002d,  -- out[i] = res
  0x090970726576203d20726573002e,  -- prev = res
  0x0909692b2b002f,  -- i++
  0x097d0030,  -- }
  0x0031,
  0x0972657475726e20706f730032,  -- return pos
  0x7d0033]  -- }

/-- `/repo/pkg/util/util.go`. -/
def utilGo : List Nat := [
  0x7061636b616765207574696c0001,  -- package util
  0x0002,
  0x696d706f727420280003,  -- import (
  0x0922696f220004,  -- "io"
  0x0922736f7274220005,  -- "sort"
  0x290006,  -- )
  0x0007,
  0x66756e632053696c656e74436c6f736528636c6f73657220696f2e436c6f73657229207b0008,  -- func SilentClose(closer io.Closer) {
  0x095f203d20636c6f7365722e436c6f736528290009,  -- _ = closer.Close()
  0x7d000a,  -- }
  0x000b,
  0x66756e632047656e55696e743332286e20696e7429205b5d75696e743332207b000c,  -- func GenUint32(n int) []uint32 {
  0x096e756d73203a3d206d616b65285b5d75696e7433322c206e29000d,  -- nums := make([]uint32, n)
  0x09666f722069203a3d20303b2069203c206e3b20692b2b207b000e,  -- for i := 0; i < n; i++ {
  0x09096e756d735b695d203d2052616e6455696e7433322829000f,  -- nums[i] = RandUint32()
  0x097d0010,  -- }
  0x0011,
  0x0972657475726e206e756d730012,  -- return nums
  0x7d0013,  -- }
  0x0014,
  0x66756e6320536f727455696e74333228696e205b5d75696e74333229207b0015,  -- func SortUint32(in []uint32) {
  0x09736f72742e536c69636528696e2c2066756e6328692c206a20696e742920626f6f6c207b0016,  -- sort.Slice(in, func(i, j int) bool {
  0x090972657475726e20696e5b695d203c20696e5b6a5d0017,  -- return in[i] < in[j]
  0x097d290018,  -- })
  0x7d0019,  -- }
  0x001a,
  0x66756e632044656c746128696e205b5d75696e7433322c206f7574205b5d75696e74333229207b001b,  -- func Delta(in []uint32, out []uint32) {
  0x09666f722069203a3d2072616e676520696e207b001c,  -- for i := range in {
  0x090969662069203e2030207b001d,  -- if i > 0 {
  0x0909096f75745b695d203d20696e5b695d202d20696e5b692d315d001e,  -- out[i] = in[i] - in[i-1]
  0x09097d20656c7365207b001f,  -- } else {
  0x0909096f75745b695d203d20696e5b695d0020,  -- out[i] = in[i]
  0x09097d0021,  -- }
  0x097d0022,  -- }
  0x7d0023]  -- }

end SVB.Sources
