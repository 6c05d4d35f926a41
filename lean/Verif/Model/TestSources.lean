/-!
# The texts of the tests of `/repo`

GENERATED by `/verif/scripts/gen_tests.py`, in the format of `Sources.lean`: one number per line of the file, its bytes
followed by two bytes for the line number, read as a big-endian number.  `Verif.Model.ScriptText` reads them.
-/
set_option autoImplicit false
set_option maxRecDepth 100000

namespace SVB.Sources

/-- `/repo/pkg/pkg_test.go`. -/
def pkgTestGo : List Nat := [
  0x7061636b61676520706b670001,  -- package pkg
  0x0002,
  0x696d706f727420280003,  -- import (
  0x09226d6174682f72616e64220004,  -- "math/rand"
  0x09227265666c656374220005,  -- "reflect"
  0x092274657374696e67220006,  -- "testing"
  0x092274696d65220007,  -- "time"
  0x0008,
  0x09226769746875622e636f6d2f7468654d506174656c2f73747265616d76627974652d73696d64676f2f706b672f6465636f6465220009,  -- "github.com/theMPatel/streamvbyte-simdgo/pkg/decode"
  0x09226769746875622e636f6d2f7468654d506174656c2f73747265616d76627974652d73696d64676f2f706b672f656e636f646522000a,  -- "github.com/theMPatel/streamvbyte-simdgo/pkg/encode"
  0x09226769746875622e636f6d2f7468654d506174656c2f73747265616d76627974652d73696d64676f2f706b672f7574696c22000b,  -- "github.com/theMPatel/streamvbyte-simdgo/pkg/util"
  0x29000c,  -- )
  0x000d,
  0x66756e6320696e69742829207b000e,  -- func init() {
  0x0972616e642e536565642874696d652e4e6f7728292e556e69784e616e6f282929000f,  -- rand.Seed(time.Now().UnixNano())
  0x7d0010,  -- }
  0x0011,
  0x66756e632054657374526f756e64547269705363616c61722874202a74657374696e672e5429207b0012,  -- func TestRoundTripScalar(t *testing.T) {
  0x09696e203a3d205b5d75696e7433327b313032342c20332c20322c20312c20315f3037335f3734315f3832342c2031302c2031322c20313032347d0013,  -- in := []uint32{1024, 3, 2, 1, 1_073_741_824, 10, 12, 1024}
  0x09657870656374656444617461203a3d205b5d627974657b0014,  -- expectedData := []byte{
  0x0909307830302c20307830342c20307830332c20307830322c20307830312c20307830302c20307830302c20307830302c20307834302c0015,  -- 0x00, 0x04, 0x03, 0x02, 0x01, 0x00, 0x00, 0x00, 0x40,
  0x0909307830612c20307830632c20307830302c20307830342c0016,  -- 0x0a, 0x0c, 0x00, 0x04,
  0x097d0017,  -- }
  0x0018,
  0x0965787065637465644374726c203a3d2075696e74313628306230315f30305f30305f31315f30305f30305f30305f3031290019,  -- expectedCtrl := uint16(0b01_00_00_11_00_00_00_01)
  0x096f7574203a3d206d616b65285b5d627974652c20333229001a,  -- out := make([]byte, 32)
  0x0961637475616c4374726c203a3d20656e636f64652e5075743875696e7433325363616c617228696e2c206f757429001b,  -- actualCtrl := encode.Put8uint32Scalar(in, out)
  0x0969662061637475616c4374726c20213d2065787065637465644374726c207b001c,  -- if actualCtrl != expectedCtrl {
  0x0909742e466174616c66282265787065637465643a202523303136622c20676f7420252330313662222c2065787065637465644374726c2c2061637475616c4374726c29001d,  -- t.Fatalf("expected: %#016b, got %#016b", expectedCtrl, actualCtrl)
  0x097d001e,  -- }
  0x001f,
  0x0961637475616c44617461203a3d206f75745b3a31335d0020,  -- actualData := out[:13]
  0x09696620217265666c6563742e44656570457175616c286578706563746564446174612c2061637475616c4461746129207b0021,  -- if !reflect.DeepEqual(expectedData, actualData) {
  0x0909742e466174616c662822657870656374656420252b762c20676f7420252b76222c206578706563746564446174612c2061637475616c44617461290022,  -- t.Fatalf("expected %+v, got %+v", expectedData, actualData)
  0x097d0023,  -- }
  0x0024,
  0x096465636f646564203a3d206d616b65285b5d75696e7433322c2038290025,  -- decoded := make([]uint32, 8)
  0x096465636f64652e4765743875696e7433325363616c61722861637475616c446174612c206465636f6465642c2061637475616c4374726c290026,  -- decode.Get8uint32Scalar(actualData, decoded, actualCtrl)
  0x0027,
  0x09696620217265666c6563742e44656570457175616c28696e2c206465636f64656429207b0028,  -- if !reflect.DeepEqual(in, decoded) {
  0x0909742e466174616c662822657870656374656420252b762c2061637475616c20252b76222c20696e2c206465636f646564290029,  -- t.Fatalf("expected %+v, actual %+v", in, decoded)
  0x097d002a,  -- }
  0x7d002b,  -- }
  0x002c,
  0x66756e632042656e63686d61726b4d656d436f70793855696e7433322862202a74657374696e672e4229207b002d,  -- func BenchmarkMemCopy8Uint32(b *testing.B) {
  0x09636f756e74203a3d2038002e,  -- count := 8
  0x096e756d73203a3d206d616b65285b5d75696e7433322c20636f756e7429002f,  -- nums := make([]uint32, count)
  0x09666f722069203a3d20303b2069203c20636f756e743b20692b2b207b0030,  -- for i := 0; i < count; i++ {
  0x09096e756d735b695d203d207574696c2e52616e6455696e74333228290031,  -- nums[i] = util.RandUint32()
  0x097d0032,  -- }
  0x0033,
  0x096f7574203a3d206d616b65285b5d75696e7433322c20636f756e74290034,  -- out := make([]uint32, count)
  0x09622e536574427974657328696e74363428636f756e74202a20656e636f64652e4d617842797465735065724e756d29290035,  -- b.SetBytes(int64(count * encode.MaxBytesPerNum))
  0x09622e526573657454696d657228290036,  -- b.ResetTimer()
  0x09666f722069203a3d20303b2069203c20622e4e3b20692b2b207b0037,  -- for i := 0; i < b.N; i++ {
  0x0909636f7079286f75742c206e756d73290038,  -- copy(out, nums)
  0x097d0039,  -- }
  0x7d003a]  -- }

/-- `/repo/pkg/encode/encode_test.go`. -/
def encodeTestGo : List Nat := [
  0x7061636b61676520656e636f64650001,  -- package encode
  0x0002,
  0x696d706f727420280003,  -- import (
  0x0922656e636f64696e672f62696e617279220004,  -- "encoding/binary"
  0x09226d6174682f72616e64220005,  -- "math/rand"
  0x09227265666c656374220006,  -- "reflect"
  0x092274657374696e67220007,  -- "testing"
  0x092274696d65220008,  -- "time"
  0x0009,
  0x09226769746875622e636f6d2f7468654d506174656c2f73747265616d76627974652d73696d64676f2f706b672f73686172656422000a,  -- "github.com/theMPatel/streamvbyte-simdgo/pkg/shared"
  0x09226769746875622e636f6d2f7468654d506174656c2f73747265616d76627974652d73696d64676f2f706b672f7574696c22000b,  -- "github.com/theMPatel/streamvbyte-simdgo/pkg/util"
  0x29000c,  -- )
  0x000d,
  0x66756e6320696e69742829207b000e,  -- func init() {
  0x0972616e642e536565642874696d652e4e6f7728292e556e69784e616e6f282929000f,  -- rand.Seed(time.Now().UnixNano())
  0x7d0010,  -- }
  0x0011,
  0x66756e6320546573745075743875696e7433325363616c61722874202a74657374696e672e5429207b0012,  -- func TestPut8uint32Scalar(t *testing.T) {
  0x09696e203a3d205b5d75696e7433327b313032342c20332c20322c20312c20315f3037335f3734315f3832342c2031302c2031322c20313032347d0013,  -- in := []uint32{1024, 3, 2, 1, 1_073_741_824, 10, 12, 1024}
  0x09657870656374656444617461203a3d205b5d627974657b0014,  -- expectedData := []byte{
  0x0909307830302c20307830342c20307830332c20307830322c20307830312c20307830302c20307830302c20307830302c20307834302c0015,  -- 0x00, 0x04, 0x03, 0x02, 0x01, 0x00, 0x00, 0x00, 0x40,
  0x0909307830612c20307830632c20307830302c20307830342c0016,  -- 0x0a, 0x0c, 0x00, 0x04,
  0x097d0017,  -- }
  0x0018,
  0x0965787065637465644374726c203a3d2075696e74313628306230315f30305f30305f31315f30305f30305f30305f3031290019,  -- expectedCtrl := uint16(0b01_00_00_11_00_00_00_01)
  0x096f7574203a3d206d616b65285b5d627974652c20333229001a,  -- out := make([]byte, 32)
  0x0961637475616c4374726c203a3d205075743875696e7433325363616c617228696e2c206f757429001b,  -- actualCtrl := Put8uint32Scalar(in, out)
  0x0969662061637475616c4374726c20213d2065787065637465644374726c207b001c,  -- if actualCtrl != expectedCtrl {
  0x0909742e466174616c66282265787065637465643a202523303136622c20676f74202523303136622c20252b76222c2065787065637465644374726c2c2061637475616c4374726c2c20696e29001d,  -- t.Fatalf("expected: %#016b, got %#016b, %+v", expectedCtrl, actualCtrl, in)
  0x097d001e,  -- }
  0x001f,
  0x0961637475616c44617461203a3d206f75745b3a31335d0020,  -- actualData := out[:13]
  0x09696620217265666c6563742e44656570457175616c286578706563746564446174612c2061637475616c4461746129207b0021,  -- if !reflect.DeepEqual(expectedData, actualData) {
  0x0909742e466174616c662822657870656374656420252b762c20676f7420252b762c20252b76222c206578706563746564446174612c2061637475616c446174612c20696e290022,  -- t.Fatalf("expected %+v, got %+v, %+v", expectedData, actualData, in)
  0x097d0023,  -- }
  0x7d0024,  -- }
  0x0025,
  0x66756e6320546573745075743875696e74333244656c74615363616c61722874202a74657374696e672e5429207b0026,  -- func TestPut8uint32DeltaScalar(t *testing.T) {
  0x09636f756e74203a3d20380027,  -- count := 8
  0x096e756d73203a3d207574696c2e47656e55696e74333228636f756e74290028,  -- nums := util.GenUint32(count)
  0x097574696c2e536f727455696e743332286e756d73290029,  -- util.SortUint32(nums)
  0x09646966666564203a3d206d616b65285b5d75696e7433322c20636f756e7429002a,  -- diffed := make([]uint32, count)
  0x097574696c2e44656c7461286e756d732c2064696666656429002b,  -- util.Delta(nums, diffed)
  0x002c,
  0x09657870656374656444617461203a3d206d616b65285b5d627974652c20636f756e742a4d617842797465735065724e756d29002d,  -- expectedData := make([]byte, count*MaxBytesPerNum)
  0x0965787065637465644374726c203a3d205075743875696e7433325363616c6172286469666665642c2065787065637465644461746129002e,  -- expectedCtrl := Put8uint32Scalar(diffed, expectedData)
  0x09657870656374656444617461203d206578706563746564446174615b3a7368617265642e436f6e74726f6c42797465546f53697a6554776f2865787065637465644374726c295d002f,  -- expectedData = expectedData[:shared.ControlByteToSizeTwo(expectedCtrl)]
  0x0030,
  0x096f7574203a3d206d616b65285b5d627974652c20636f756e742a4d617842797465735065724e756d290031,  -- out := make([]byte, count*MaxBytesPerNum)
  0x0961637475616c4374726c203a3d205075743875696e74333244656c74615363616c6172286e756d732c206f75742c2030290032,  -- actualCtrl := Put8uint32DeltaScalar(nums, out, 0)
  0x0969662061637475616c4374726c20213d2065787065637465644374726c207b0033,  -- if actualCtrl != expectedCtrl {
  0x0909742e466174616c66282265787065637465643a202523303136622c20676f74202523303136622c20252b76222c2065787065637465644374726c2c2061637475616c4374726c2c206e756d73290034,  -- t.Fatalf("expected: %#016b, got %#016b, %+v", expectedCtrl, actualCtrl, nums)
  0x097d0035,  -- }
  0x0036,
  0x0961637475616c44617461203a3d206f75745b3a7368617265642e436f6e74726f6c42797465546f53697a6554776f2861637475616c4374726c295d0037,  -- actualData := out[:shared.ControlByteToSizeTwo(actualCtrl)]
  0x09696620217265666c6563742e44656570457175616c286578706563746564446174612c2061637475616c4461746129207b0038,  -- if !reflect.DeepEqual(expectedData, actualData) {
  0x0909742e466174616c662822657870656374656420252b762c20676f7420252b762c20252b76222c206578706563746564446174612c2061637475616c446174612c206e756d73290039,  -- t.Fatalf("expected %+v, got %+v, %+v", expectedData, actualData, nums)
  0x097d003a,  -- }
  0x7d003b,  -- }
  0x003c,
  0x66756e6320546573745075743875696e743332466173742874202a74657374696e672e5429207b003d,  -- func TestPut8uint32Fast(t *testing.T) {
  0x096966204765744d6f64652829203d3d207368617265642e4e6f726d616c207b003e,  -- if GetMode() == shared.Normal {
  0x0909742e536b697066282254657374696e6720656e7669726f6e6d656e7420646f65736e277420737570706f7274207468697320746573742229003f,  -- t.Skipf("Testing environment doesn't support this test")
  0x097d0040,  -- }
  0x0041,
  0x09636f756e74203a3d20380042,  -- count := 8
  0x096e756d73203a3d207574696c2e47656e55696e74333228636f756e74290043,  -- nums := util.GenUint32(count)
  0x0044,
  0x096f7574203a3d206d616b65285b5d627974652c204d617842797465735065724e756d2a636f756e74290045,  -- out := make([]byte, MaxBytesPerNum*count)
  0x097363616c61724374726c203a3d205075743875696e7433325363616c6172286e756d732c206f7574290046,  -- scalarCtrl := Put8uint32Scalar(nums, out)
  0x096f7574203d206f75745b3a7368617265642e436f6e74726f6c42797465546f53697a6554776f287363616c61724374726c295d0047,  -- out = out[:shared.ControlByteToSizeTwo(scalarCtrl)]
  0x0048,
  0x09666173744f7574203a3d206d616b65285b5d627974652c204d617842797465735065724e756d2a636f756e74290049,  -- fastOut := make([]byte, MaxBytesPerNum*count)
  0x09666173744374726c203a3d205075743875696e74333246617374286e756d732c20666173744f757429004a,  -- fastCtrl := Put8uint32Fast(nums, fastOut)
  0x09666173744f7574203d20666173744f75745b3a7368617265642e436f6e74726f6c42797465546f53697a6554776f28666173744374726c295d004b,  -- fastOut = fastOut[:shared.ControlByteToSizeTwo(fastCtrl)]
  0x004c,
  0x096966207363616c61724374726c20213d20666173744374726c207b004d,  -- if scalarCtrl != fastCtrl {
  0x0909742e466174616c66282265787065637465642025233034782c2061637475616c2025233034782c20252b76222c207363616c61724374726c2c20666173744374726c2c206e756d7329004e,  -- t.Fatalf("expected %#04x, actual %#04x, %+v", scalarCtrl, fastCtrl, nums)
  0x097d004f,  -- }
  0x0050,
  0x09696620217265666c6563742e44656570457175616c286f75742c20666173744f757429207b0051,  -- if !reflect.DeepEqual(out, fastOut) {
  0x0909742e466174616c662822657870656374656420252b762c20676f7420252b762c20252b76222c206f75742c20666173744f75742c206e756d73290052,  -- t.Fatalf("expected %+v, got %+v, %+v", out, fastOut, nums)
  0x097d0053,  -- }
  0x7d0054,  -- }
  0x0055,
  0x66756e6320546573745075743875696e74333244656c7461466173742874202a74657374696e672e5429207b0056,  -- func TestPut8uint32DeltaFast(t *testing.T) {
  0x096966204765744d6f64652829203d3d207368617265642e4e6f726d616c207b0057,  -- if GetMode() == shared.Normal {
  0x0909742e536b697066282254657374696e6720656e7669726f6e6d656e7420646f65736e277420737570706f72742074686973207465737422290058,  -- t.Skipf("Testing environment doesn't support this test")
  0x097d0059,  -- }
  0x005a,
  0x09636f756e74203a3d2038005b,  -- count := 8
  0x096e756d73203a3d207574696c2e47656e55696e74333228636f756e7429005c,  -- nums := util.GenUint32(count)
  0x097574696c2e536f727455696e743332286e756d7329005d,  -- util.SortUint32(nums)
  0x005e,
  0x09657870656374656444617461203a3d206d616b65285b5d627974652c204d617842797465735065724e756d2a636f756e7429005f,  -- expectedData := make([]byte, MaxBytesPerNum*count)
  0x097363616c61724374726c203a3d205075743875696e74333244656c74615363616c6172286e756d732c206578706563746564446174612c2030290060,  -- scalarCtrl := Put8uint32DeltaScalar(nums, expectedData, 0)
  0x09657870656374656444617461203d206578706563746564446174615b3a7368617265642e436f6e74726f6c42797465546f53697a6554776f287363616c61724374726c295d0061,  -- expectedData = expectedData[:shared.ControlByteToSizeTwo(scalarCtrl)]
  0x0062,
  0x09666173744f7574203a3d206d616b65285b5d627974652c204d617842797465735065724e756d2a636f756e74290063,  -- fastOut := make([]byte, MaxBytesPerNum*count)
  0x09666173744374726c203a3d205075743875696e74333244656c746146617374286e756d732c20666173744f75742c2030290064,  -- fastCtrl := Put8uint32DeltaFast(nums, fastOut, 0)
  0x09666173744f7574203d20666173744f75745b3a7368617265642e436f6e74726f6c42797465546f53697a6554776f28666173744374726c295d0065,  -- fastOut = fastOut[:shared.ControlByteToSizeTwo(fastCtrl)]
  0x0066,
  0x096966207363616c61724374726c20213d20666173744374726c207b0067,  -- if scalarCtrl != fastCtrl {
  0x0909742e466174616c66282265787065637465642025233034782c2061637475616c2025233034782c20252b76222c207363616c61724374726c2c20666173744374726c2c206e756d73290068,  -- t.Fatalf("expected %#04x, actual %#04x, %+v", scalarCtrl, fastCtrl, nums)
  0x097d0069,  -- }
  0x006a,
  0x09696620217265666c6563742e44656570457175616c286578706563746564446174612c20666173744f757429207b006b,  -- if !reflect.DeepEqual(expectedData, fastOut) {
  0x0909742e466174616c662822657870656374656420252b762c20676f7420252b762c20252b76222c206578706563746564446174612c20666173744f75742c206e756d7329006c,  -- t.Fatalf("expected %+v, got %+v, %+v", expectedData, fastOut, nums)
  0x097d006d,  -- }
  0x7d006e,  -- }
  0x006f,
  0x66756e63205465737450757455696e7433325363616c61722874202a74657374696e672e5429207b0070,  -- func TestPutUint32Scalar(t *testing.T) {
  0x09636f756e74203a3d2072616e642e496e746e283429202b20310071,  -- count := rand.Intn(4) + 1
  0x096e756d73203a3d207574696c2e47656e55696e74333228636f756e74290072,  -- nums := util.GenUint32(count)
  0x09666f722069203a3d2034202d20636f756e743b2069203e20303b20692d2d207b0073,  -- for i := 4 - count; i > 0; i-- {
  0x09096e756d73203d20617070656e64286e756d732c2030290074,  -- nums = append(nums, 0)
  0x097d0075,  -- }
  0x0076,
  0x096578706563746564203a3d206d616b65285b5d627974652c20342a4d617842797465735065724e756d290077,  -- expected := make([]byte, 4*MaxBytesPerNum)
  0x096374726c203a3d205075743475696e7433325363616c6172286e756d732c206578706563746564290078,  -- ctrl := Put4uint32Scalar(nums, expected)
  0x0973697a65203a3d207368617265642e436f6e74726f6c42797465546f53697a65286374726c290079,  -- size := shared.ControlByteToSize(ctrl)
  0x0973697a65202d3d2034202d20636f756e74007a,  -- size -= 4 - count
  0x096578706563746564203d2065787065637465645b3a73697a655d007b,  -- expected = expected[:size]
  0x007c,
  0x096f7574203a3d206d616b65285b5d627974652c20636f756e742a4d617842797465735065724e756d29007d,  -- out := make([]byte, count*MaxBytesPerNum)
  0x096374726c203d2050757455696e7433325363616c6172286e756d735b3a636f756e745d2c206f75742c20636f756e7429007e,  -- ctrl = PutUint32Scalar(nums[:count], out, count)
  0x0973697a65203d207368617265642e436f6e74726f6c42797465546f53697a65286374726c29007f,  -- size = shared.ControlByteToSize(ctrl)
  0x0973697a65202d3d2034202d20636f756e740080,  -- size -= 4 - count
  0x096f7574203d206f75745b3a73697a655d0081,  -- out = out[:size]
  0x09696620217265666c6563742e44656570457175616c2865787065637465642c206f757429207b0082,  -- if !reflect.DeepEqual(expected, out) {
  0x0909742e466174616c662822657870656374656420252b762c20676f7420252b76222c2065787065637465642c206f7574290083,  -- t.Fatalf("expected %+v, got %+v", expected, out)
  0x097d0084,  -- }
  0x7d0085,  -- }
  0x0086,
  0x66756e63205465737450757455696e74333244656c74615363616c61722874202a74657374696e672e5429207b0087,  -- func TestPutUint32DeltaScalar(t *testing.T) {
  0x09636f756e74203a3d2072616e642e496e746e283429202b20310088,  -- count := rand.Intn(4) + 1
  0x096e756d73203a3d207574696c2e47656e55696e74333228636f756e74290089,  -- nums := util.GenUint32(count)
  0x097574696c2e536f727455696e743332286e756d7329008a,  -- util.SortUint32(nums)
  0x09666f722069203a3d2034202d20636f756e743b2069203e20303b20692d2d207b008b,  -- for i := 4 - count; i > 0; i-- {
  0x09096e756d73203d20617070656e64286e756d732c206e756d735b636f756e742d315d29008c,  -- nums = append(nums, nums[count-1])
  0x097d008d,  -- }
  0x008e,
  0x0964656c746173203a3d206d616b65285b5d75696e7433322c203429008f,  -- deltas := make([]uint32, 4)
  0x097574696c2e44656c7461286e756d732c2064656c746173290090,  -- util.Delta(nums, deltas)
  0x0091,
  0x096578706563746564203a3d206d616b65285b5d627974652c20342a4d617842797465735065724e756d290092,  -- expected := make([]byte, 4*MaxBytesPerNum)
  0x096374726c203a3d205075743475696e7433325363616c61722864656c7461732c206578706563746564290093,  -- ctrl := Put4uint32Scalar(deltas, expected)
  0x0973697a65203a3d207368617265642e436f6e74726f6c42797465546f53697a65286374726c290094,  -- size := shared.ControlByteToSize(ctrl)
  0x0973697a65202d3d2034202d20636f756e740095,  -- size -= 4 - count
  0x096578706563746564203d2065787065637465645b3a73697a655d0096,  -- expected = expected[:size]
  0x0097,
  0x096f7574203a3d206d616b65285b5d627974652c20636f756e742a4d617842797465735065724e756d290098,  -- out := make([]byte, count*MaxBytesPerNum)
  0x096374726c203d2050757455696e74333244656c74615363616c6172286e756d735b3a636f756e745d2c206f75742c20636f756e742c2030290099,  -- ctrl = PutUint32DeltaScalar(nums[:count], out, count, 0)
  0x0973697a65203d207368617265642e436f6e74726f6c42797465546f53697a65286374726c29009a,  -- size = shared.ControlByteToSize(ctrl)
  0x0973697a65202d3d2034202d20636f756e74009b,  -- size -= 4 - count
  0x096f7574203d206f75745b3a73697a655d009c,  -- out = out[:size]
  0x09696620217265666c6563742e44656570457175616c2865787065637465642c206f757429207b009d,  -- if !reflect.DeepEqual(expected, out) {
  0x0909742e466174616c662822657870656374656420252b762c20676f7420252b76222c2065787065637465642c206f757429009e,  -- t.Fatalf("expected %+v, got %+v", expected, out)
  0x097d009f,  -- }
  0x7d00a0,  -- }
  0x00a1,
  0x76617220777269746553696e6b412075696e74313600a2,  -- var writeSinkA uint16
  0x00a3,
  0x66756e632042656e63686d61726b5075743875696e743332466173742862202a74657374696e672e4229207b00a4,  -- func BenchmarkPut8uint32Fast(b *testing.B) {
  0x096966204765744d6f64652829203d3d207368617265642e4e6f726d616c207b00a5,  -- if GetMode() == shared.Normal {
  0x0909622e536b697066282254657374696e6720656e7669726f6e6d656e7420646f65736e277420737570706f727420746869732074657374222900a6,  -- b.Skipf("Testing environment doesn't support this test")
  0x097d00a7,  -- }
  0x00a8,
  0x09636f756e74203a3d203800a9,  -- count := 8
  0x096f7574203a3d206d616b65285b5d627974652c20636f756e742a4d617842797465735065724e756d2900aa,  -- out := make([]byte, count*MaxBytesPerNum)
  0x096e756d73203a3d207574696c2e47656e55696e74333228636f756e742900ab,  -- nums := util.GenUint32(count)
  0x00ac,
  0x09766172206374726c2075696e74313600ad,  -- var ctrl uint16
  0x09622e536574427974657328696e74363428636f756e74202a204d617842797465735065724e756d292900ae,  -- b.SetBytes(int64(count * MaxBytesPerNum))
  0x09622e526573657454696d6572282900af,  -- b.ResetTimer()
  0x09666f722069203a3d20303b2069203c20622e4e3b20692b2b207b00b0,  -- for i := 0; i < b.N; i++ {
  0x09096374726c203d205075743875696e74333246617374286e756d732c206f75742900b1,  -- ctrl = Put8uint32Fast(nums, out)
  0x097d00b2,  -- }
  0x09777269746553696e6b41203d206374726c00b3,  -- writeSinkA = ctrl
  0x7d00b4,  -- }
  0x00b5,
  0x76617220777269746553696e6b422075696e74313600b6,  -- var writeSinkB uint16
  0x00b7,
  0x66756e632042656e63686d61726b5075743875696e74333244656c7461466173742862202a74657374696e672e4229207b00b8,  -- func BenchmarkPut8uint32DeltaFast(b *testing.B) {
  0x096966204765744d6f64652829203d3d207368617265642e4e6f726d616c207b00b9,  -- if GetMode() == shared.Normal {
  0x0909622e536b697066282254657374696e6720656e7669726f6e6d656e7420646f65736e277420737570706f727420746869732074657374222900ba,  -- b.Skipf("Testing environment doesn't support this test")
  0x097d00bb,  -- }
  0x00bc,
  0x09636f756e74203a3d203800bd,  -- count := 8
  0x096f7574203a3d206d616b65285b5d627974652c20636f756e742a4d617842797465735065724e756d2900be,  -- out := make([]byte, count*MaxBytesPerNum)
  0x096e756d73203a3d207574696c2e47656e55696e74333228636f756e742900bf,  -- nums := util.GenUint32(count)
  0x097574696c2e536f727455696e743332286e756d732900c0,  -- util.SortUint32(nums)
  0x00c1,
  0x09766172206374726c2075696e74313600c2,  -- var ctrl uint16
  0x09622e536574427974657328696e74363428636f756e74202a204d617842797465735065724e756d292900c3,  -- b.SetBytes(int64(count * MaxBytesPerNum))
  0x09622e526573657454696d6572282900c4,  -- b.ResetTimer()
  0x09666f722069203a3d20303b2069203c20622e4e3b20692b2b207b00c5,  -- for i := 0; i < b.N; i++ {
  0x09096374726c203d205075743875696e74333244656c746146617374286e756d732c206f75742c20302900c6,  -- ctrl = Put8uint32DeltaFast(nums, out, 0)
  0x097d00c7,  -- }
  0x09777269746553696e6b42203d206374726c00c8,  -- writeSinkB = ctrl
  0x7d00c9,  -- }
  0x00ca,
  0x76617220777269746553696e6b432075696e74313600cb,  -- var writeSinkC uint16
  0x00cc,
  0x66756e632042656e63686d61726b5075743875696e7433325363616c61722862202a74657374696e672e4229207b00cd,  -- func BenchmarkPut8uint32Scalar(b *testing.B) {
  0x09636f756e74203a3d203800ce,  -- count := 8
  0x096f7574203a3d206d616b65285b5d627974652c20636f756e742a4d617842797465735065724e756d2900cf,  -- out := make([]byte, count*MaxBytesPerNum)
  0x096e756d73203a3d207574696c2e47656e55696e74333228636f756e742900d0,  -- nums := util.GenUint32(count)
  0x00d1,
  0x09766172206374726c2075696e74313600d2,  -- var ctrl uint16
  0x09622e536574427974657328696e74363428636f756e74202a204d617842797465735065724e756d292900d3,  -- b.SetBytes(int64(count * MaxBytesPerNum))
  0x09622e526573657454696d6572282900d4,  -- b.ResetTimer()
  0x09666f722069203a3d20303b2069203c20622e4e3b20692b2b207b00d5,  -- for i := 0; i < b.N; i++ {
  0x09096374726c203d205075743875696e7433325363616c6172286e756d732c206f75742900d6,  -- ctrl = Put8uint32Scalar(nums, out)
  0x097d00d7,  -- }
  0x09777269746553696e6b43203d206374726c00d8,  -- writeSinkC = ctrl
  0x7d00d9,  -- }
  0x00da,
  0x76617220777269746553696e6b442075696e74313600db,  -- var writeSinkD uint16
  0x00dc,
  0x66756e632042656e63686d61726b5075743875696e74333244656c74615363616c61722862202a74657374696e672e4229207b00dd,  -- func BenchmarkPut8uint32DeltaScalar(b *testing.B) {
  0x09636f756e74203a3d203800de,  -- count := 8
  0x096f7574203a3d206d616b65285b5d627974652c20636f756e742a4d617842797465735065724e756d2900df,  -- out := make([]byte, count*MaxBytesPerNum)
  0x096e756d73203a3d207574696c2e47656e55696e74333228636f756e742900e0,  -- nums := util.GenUint32(count)
  0x097574696c2e536f727455696e743332286e756d732900e1,  -- util.SortUint32(nums)
  0x00e2,
  0x09766172206374726c2075696e74313600e3,  -- var ctrl uint16
  0x09622e536574427974657328696e74363428636f756e74202a204d617842797465735065724e756d292900e4,  -- b.SetBytes(int64(count * MaxBytesPerNum))
  0x09622e526573657454696d6572282900e5,  -- b.ResetTimer()
  0x09666f722069203a3d20303b2069203c20622e4e3b20692b2b207b00e6,  -- for i := 0; i < b.N; i++ {
  0x09096374726c203d205075743875696e74333244656c74615363616c6172286e756d732c206f75742c20302900e7,  -- ctrl = Put8uint32DeltaScalar(nums, out, 0)
  0x097d00e8,  -- }
  0x09777269746553696e6b44203d206374726c00e9,  -- writeSinkD = ctrl
  0x7d00ea,  -- }
  0x00eb,
  0x76617220777269746553696e6b4520696e7400ec,  -- var writeSinkE int
  0x00ed,
  0x66756e632042656e63686d61726b5075743875696e743332566172696e742862202a74657374696e672e4229207b00ee,  -- func BenchmarkPut8uint32Varint(b *testing.B) {
  0x09636f756e74203a3d203800ef,  -- count := 8
  0x096f7574203a3d206d616b65285b5d627974652c20636f756e742a62696e6172792e4d6178566172696e744c656e33322900f0,  -- out := make([]byte, count*binary.MaxVarintLen32)
  0x096e756d73203a3d207574696c2e47656e55696e74333228636f756e742900f1,  -- nums := util.GenUint32(count)
  0x097772697474656e203a3d203000f2,  -- written := 0
  0x00f3,
  0x09622e536574427974657328696e74363428636f756e74202a204d617842797465735065724e756d292900f4,  -- b.SetBytes(int64(count * MaxBytesPerNum))
  0x09622e526573657454696d6572282900f5,  -- b.ResetTimer()
  0x09666f722069203a3d20303b2069203c20622e4e3b20692b2b207b00f6,  -- for i := 0; i < b.N; i++ {
  0x09097772697474656e203d207574696c2e507574566172696e74286e756d732c206f75742900f7,  -- written = util.PutVarint(nums, out)
  0x097d00f8,  -- }
  0x09777269746553696e6b45203d207772697474656e00f9,  -- writeSinkE = written
  0x7d00fa,  -- }
  0x00fb,
  0x76617220777269746553696e6b4620696e7400fc,  -- var writeSinkF int
  0x00fd,
  0x66756e632042656e63686d61726b5075743875696e74333244656c7461566172696e742862202a74657374696e672e4229207b00fe,  -- func BenchmarkPut8uint32DeltaVarint(b *testing.B) {
  0x09636f756e74203a3d203800ff,  -- count := 8
  0x096f7574203a3d206d616b65285b5d627974652c20636f756e742a62696e6172792e4d6178566172696e744c656e3332290100,  -- out := make([]byte, count*binary.MaxVarintLen32)
  0x096e756d73203a3d207574696c2e47656e55696e74333228636f756e74290101,  -- nums := util.GenUint32(count)
  0x097574696c2e536f727455696e743332286e756d73290102,  -- util.SortUint32(nums)
  0x097772697474656e203a3d20300103,  -- written := 0
  0x0104,
  0x09622e536574427974657328696e74363428636f756e74202a204d617842797465735065724e756d29290105,  -- b.SetBytes(int64(count * MaxBytesPerNum))
  0x09622e526573657454696d657228290106,  -- b.ResetTimer()
  0x09666f722069203a3d20303b2069203c20622e4e3b20692b2b207b0107,  -- for i := 0; i < b.N; i++ {
  0x09097772697474656e203d207574696c2e50757444656c7461566172696e74286e756d732c206f75742c2030290108,  -- written = util.PutDeltaVarint(nums, out, 0)
  0x097d0109,  -- }
  0x09777269746553696e6b46203d207772697474656e010a,  -- writeSinkF = written
  0x7d010b]  -- }

/-- `/repo/pkg/decode/decode_test.go`. -/
def decodeTestGo : List Nat := [
  0x7061636b616765206465636f64650001,  -- package decode
  0x0002,
  0x696d706f727420280003,  -- import (
  0x0922656e636f64696e672f62696e617279220004,  -- "encoding/binary"
  0x09226d6174682f72616e64220005,  -- "math/rand"
  0x09227265666c656374220006,  -- "reflect"
  0x092274657374696e67220007,  -- "testing"
  0x092274696d65220008,  -- "time"
  0x0009,
  0x09226769746875622e636f6d2f7468654d506174656c2f73747265616d76627974652d73696d64676f2f706b672f656e636f646522000a,  -- "github.com/theMPatel/streamvbyte-simdgo/pkg/encode"
  0x09226769746875622e636f6d2f7468654d506174656c2f73747265616d76627974652d73696d64676f2f706b672f73686172656422000b,  -- "github.com/theMPatel/streamvbyte-simdgo/pkg/shared"
  0x09226769746875622e636f6d2f7468654d506174656c2f73747265616d76627974652d73696d64676f2f706b672f7574696c22000c,  -- "github.com/theMPatel/streamvbyte-simdgo/pkg/util"
  0x29000d,  -- )
  0x000e,
  0x66756e6320696e69742829207b000f,  -- func init() {
  0x0972616e642e536565642874696d652e4e6f7728292e556e69784e616e6f2829290010,  -- rand.Seed(time.Now().UnixNano())
  0x7d0011,  -- }
  0x0012,
  0x66756e6320546573744765743875696e7433325363616c61722874202a74657374696e672e5429207b0013,  -- func TestGet8uint32Scalar(t *testing.T) {
  0x09636f756e74203a3d20380014,  -- count := 8
  0x096578706563746564203a3d207574696c2e47656e55696e74333228636f756e74290015,  -- expected := util.GenUint32(count)
  0x09696e203a3d206d616b65285b5d627974652c20636f756e742a656e636f64652e4d617842797465735065724e756d290016,  -- in := make([]byte, count*encode.MaxBytesPerNum)
  0x096374726c203a3d20656e636f64652e5075743875696e7433325363616c61722865787065637465642c20696e290017,  -- ctrl := encode.Put8uint32Scalar(expected, in)
  0x096f7574203a3d206d616b65285b5d75696e7433322c2038290018,  -- out := make([]uint32, 8)
  0x0019,
  0x094765743875696e7433325363616c617228696e2c206f75742c206374726c29001a,  -- Get8uint32Scalar(in, out, ctrl)
  0x09696620217265666c6563742e44656570457175616c2865787065637465642c206f757429207b001b,  -- if !reflect.DeepEqual(expected, out) {
  0x0909742e466174616c662822657870656374656420252b762c20676f7420252b76222c2065787065637465642c206f757429001c,  -- t.Fatalf("expected %+v, got %+v", expected, out)
  0x097d001d,  -- }
  0x7d001e,  -- }
  0x001f,
  0x66756e6320546573744765743875696e74333244656c74615363616c61722874202a74657374696e672e5429207b0020,  -- func TestGet8uint32DeltaScalar(t *testing.T) {
  0x09636f756e74203a3d20380021,  -- count := 8
  0x096578706563746564203a3d207574696c2e47656e55696e74333228636f756e74290022,  -- expected := util.GenUint32(count)
  0x097574696c2e536f727455696e743332286578706563746564290023,  -- util.SortUint32(expected)
  0x09696e203a3d206d616b65285b5d627974652c20636f756e742a656e636f64652e4d617842797465735065724e756d290024,  -- in := make([]byte, count*encode.MaxBytesPerNum)
  0x096374726c203a3d20656e636f64652e5075743875696e74333244656c74615363616c61722865787065637465642c20696e2c2030290025,  -- ctrl := encode.Put8uint32DeltaScalar(expected, in, 0)
  0x096f7574203a3d206d616b65285b5d75696e7433322c2038290026,  -- out := make([]uint32, 8)
  0x0027,
  0x094765743875696e74333244656c74615363616c617228696e2c206f75742c206374726c2c2030290028,  -- Get8uint32DeltaScalar(in, out, ctrl, 0)
  0x09696620217265666c6563742e44656570457175616c2865787065637465642c206f757429207b0029,  -- if !reflect.DeepEqual(expected, out) {
  0x0909742e466174616c662822657870656374656420252b762c20676f7420252b76222c2065787065637465642c206f757429002a,  -- t.Fatalf("expected %+v, got %+v", expected, out)
  0x097d002b,  -- }
  0x7d002c,  -- }
  0x002d,
  0x66756e6320546573744765743875696e743332466173742874202a74657374696e672e5429207b002e,  -- func TestGet8uint32Fast(t *testing.T) {
  0x096966204765744d6f64652829203d3d207368617265642e4e6f726d616c207b002f,  -- if GetMode() == shared.Normal {
  0x0909742e536b697066282254657374696e6720656e7669726f6e6d656e7420646f65736e277420737570706f72742074686973207465737422290030,  -- t.Skipf("Testing environment doesn't support this test")
  0x097d0031,  -- }
  0x0032,
  0x09636f756e74203a3d20380033,  -- count := 8
  0x096578706563746564203a3d207574696c2e47656e55696e74333228636f756e74290034,  -- expected := util.GenUint32(count)
  0x09696e203a3d206d616b65285b5d627974652c20636f756e742a656e636f64652e4d617842797465735065724e756d290035,  -- in := make([]byte, count*encode.MaxBytesPerNum)
  0x096374726c203a3d20656e636f64652e5075743875696e7433325363616c61722865787065637465642c20696e290036,  -- ctrl := encode.Put8uint32Scalar(expected, in)
  0x096f7574203a3d206d616b65285b5d75696e7433322c2038290037,  -- out := make([]uint32, 8)
  0x0038,
  0x094765743875696e7433324661737428696e2c206f75742c206374726c290039,  -- Get8uint32Fast(in, out, ctrl)
  0x09696620217265666c6563742e44656570457175616c2865787065637465642c206f757429207b003a,  -- if !reflect.DeepEqual(expected, out) {
  0x0909742e466174616c662822657870656374656420252b762c20676f7420252b76222c2065787065637465642c206f757429003b,  -- t.Fatalf("expected %+v, got %+v", expected, out)
  0x097d003c,  -- }
  0x7d003d,  -- }
  0x003e,
  0x66756e6320546573744765743875696e74333244656c7461466173742874202a74657374696e672e5429207b003f,  -- func TestGet8uint32DeltaFast(t *testing.T) {
  0x096966204765744d6f64652829203d3d207368617265642e4e6f726d616c207b0040,  -- if GetMode() == shared.Normal {
  0x0909742e536b697066282254657374696e6720656e7669726f6e6d656e7420646f65736e277420737570706f72742074686973207465737422290041,  -- t.Skipf("Testing environment doesn't support this test")
  0x097d0042,  -- }
  0x0043,
  0x09636f756e74203a3d20380044,  -- count := 8
  0x096578706563746564203a3d207574696c2e47656e55696e74333228636f756e74290045,  -- expected := util.GenUint32(count)
  0x097574696c2e536f727455696e743332286578706563746564290046,  -- util.SortUint32(expected)
  0x09696e203a3d206d616b65285b5d627974652c20636f756e742a656e636f64652e4d617842797465735065724e756d290047,  -- in := make([]byte, count*encode.MaxBytesPerNum)
  0x096374726c203a3d20656e636f64652e5075743875696e74333244656c74615363616c61722865787065637465642c20696e2c2030290048,  -- ctrl := encode.Put8uint32DeltaScalar(expected, in, 0)
  0x096f7574203a3d206d616b65285b5d75696e7433322c2038290049,  -- out := make([]uint32, 8)
  0x004a,
  0x094765743875696e74333244656c74614661737428696e2c206f75742c206374726c2c203029004b,  -- Get8uint32DeltaFast(in, out, ctrl, 0)
  0x09696620217265666c6563742e44656570457175616c2865787065637465642c206f757429207b004c,  -- if !reflect.DeepEqual(expected, out) {
  0x0909742e466174616c662822657870656374656420252b762c20676f7420252b76222c2065787065637465642c206f757429004d,  -- t.Fatalf("expected %+v, got %+v", expected, out)
  0x097d004e,  -- }
  0x7d004f,  -- }
  0x0050,
  0x66756e63205465737447657455696e7433325363616c61722874202a74657374696e672e5429207b0051,  -- func TestGetUint32Scalar(t *testing.T) {
  0x09636f756e74203a3d2072616e642e496e746e283429202b20310052,  -- count := rand.Intn(4) + 1
  0x096578706563746564203a3d207574696c2e47656e55696e74333228636f756e74290053,  -- expected := util.GenUint32(count)
  0x09696e203a3d206d616b65285b5d627974652c20636f756e742a656e636f64652e4d617842797465735065724e756d290054,  -- in := make([]byte, count*encode.MaxBytesPerNum)
  0x096374726c203a3d20656e636f64652e50757455696e7433325363616c61722865787065637465642c20696e2c20636f756e74290055,  -- ctrl := encode.PutUint32Scalar(expected, in, count)
  0x096f7574203a3d206d616b65285b5d75696e7433322c20636f756e74290056,  -- out := make([]uint32, count)
  0x0057,
  0x0947657455696e7433325363616c617228696e2c206f75742c206374726c2c20636f756e74290058,  -- GetUint32Scalar(in, out, ctrl, count)
  0x09696620217265666c6563742e44656570457175616c2865787065637465642c206f757429207b0059,  -- if !reflect.DeepEqual(expected, out) {
  0x0909742e466174616c662822657870656374656420252b762c20676f7420252b76222c2065787065637465642c206f757429005a,  -- t.Fatalf("expected %+v, got %+v", expected, out)
  0x097d005b,  -- }
  0x7d005c,  -- }
  0x005d,
  0x66756e63205465737447657455696e74333244656c74615363616c61722874202a74657374696e672e5429207b005e,  -- func TestGetUint32DeltaScalar(t *testing.T) {
  0x09636f756e74203a3d2072616e642e496e746e283429202b2031005f,  -- count := rand.Intn(4) + 1
  0x096578706563746564203a3d207574696c2e47656e55696e74333228636f756e74290060,  -- expected := util.GenUint32(count)
  0x097574696c2e536f727455696e743332286578706563746564290061,  -- util.SortUint32(expected)
  0x09696e203a3d206d616b65285b5d627974652c20636f756e742a656e636f64652e4d617842797465735065724e756d290062,  -- in := make([]byte, count*encode.MaxBytesPerNum)
  0x0964656c746173203a3d206d616b65285b5d75696e7433322c20636f756e74290063,  -- deltas := make([]uint32, count)
  0x097574696c2e44656c74612865787065637465642c2064656c746173290064,  -- util.Delta(expected, deltas)
  0x096374726c203a3d20656e636f64652e50757455696e7433325363616c61722864656c7461732c20696e2c20636f756e74290065,  -- ctrl := encode.PutUint32Scalar(deltas, in, count)
  0x0066,
  0x096f7574203a3d206d616b65285b5d75696e7433322c20636f756e74290067,  -- out := make([]uint32, count)
  0x0947657455696e74333244656c74615363616c617228696e2c206f75742c206374726c2c20636f756e742c2030290068,  -- GetUint32DeltaScalar(in, out, ctrl, count, 0)
  0x09696620217265666c6563742e44656570457175616c2865787065637465642c206f757429207b0069,  -- if !reflect.DeepEqual(expected, out) {
  0x0909742e466174616c662822657870656374656420252b762c20676f7420252b76222c2065787065637465642c206f757429006a,  -- t.Fatalf("expected %+v, got %+v", expected, out)
  0x097d006b,  -- }
  0x7d006c,  -- }
  0x006d,
  0x766172207265616453696e6b41205b5d75696e743332006e,  -- var readSinkA []uint32
  0x006f,
  0x66756e632042656e63686d61726b4765743875696e743332466173742862202a74657374696e672e4229207b0070,  -- func BenchmarkGet8uint32Fast(b *testing.B) {
  0x096966204765744d6f64652829203d3d207368617265642e4e6f726d616c207b0071,  -- if GetMode() == shared.Normal {
  0x0909622e536b697066282254657374696e6720656e7669726f6e6d656e7420646f65736e277420737570706f72742074686973207465737422290072,  -- b.Skipf("Testing environment doesn't support this test")
  0x097d0073,  -- }
  0x0074,
  0x09636f756e74203a3d20380075,  -- count := 8
  0x096f7574203a3d206d616b65285b5d75696e7433322c20636f756e74290076,  -- out := make([]uint32, count)
  0x0077,
  0x096e756d73203a3d207574696c2e47656e55696e74333228636f756e74290078,  -- nums := util.GenUint32(count)
  0x09696e203a3d206d616b65285b5d627974652c20636f756e742a656e636f64652e4d617842797465735065724e756d290079,  -- in := make([]byte, count*encode.MaxBytesPerNum)
  0x096374726c203a3d20656e636f64652e5075743875696e7433325363616c6172286e756d732c20696e29007a,  -- ctrl := encode.Put8uint32Scalar(nums, in)
  0x007b,
  0x09622e536574427974657328696e74363428636f756e74202a20656e636f64652e4d617842797465735065724e756d2929007c,  -- b.SetBytes(int64(count * encode.MaxBytesPerNum))
  0x09622e526573657454696d65722829007d,  -- b.ResetTimer()
  0x09666f722069203a3d20303b2069203c20622e4e3b20692b2b207b007e,  -- for i := 0; i < b.N; i++ {
  0x09094765743875696e7433324661737428696e2c206f75742c206374726c29007f,  -- Get8uint32Fast(in, out, ctrl)
  0x097d0080,  -- }
  0x097265616453696e6b41203d206f75740081,  -- readSinkA = out
  0x7d0082,  -- }
  0x0083,
  0x766172207265616453696e6b42205b5d75696e7433320084,  -- var readSinkB []uint32
  0x0085,
  0x66756e632042656e63686d61726b4765743875696e74333244656c7461466173742862202a74657374696e672e4229207b0086,  -- func BenchmarkGet8uint32DeltaFast(b *testing.B) {
  0x096966204765744d6f64652829203d3d207368617265642e4e6f726d616c207b0087,  -- if GetMode() == shared.Normal {
  0x0909622e536b697066282254657374696e6720656e7669726f6e6d656e7420646f65736e277420737570706f72742074686973207465737422290088,  -- b.Skipf("Testing environment doesn't support this test")
  0x097d0089,  -- }
  0x008a,
  0x09636f756e74203a3d2038008b,  -- count := 8
  0x096f7574203a3d206d616b65285b5d75696e7433322c20636f756e7429008c,  -- out := make([]uint32, count)
  0x096e756d73203a3d207574696c2e47656e55696e74333228636f756e7429008d,  -- nums := util.GenUint32(count)
  0x097574696c2e536f727455696e743332286e756d7329008e,  -- util.SortUint32(nums)
  0x09696e203a3d206d616b65285b5d627974652c20636f756e742a656e636f64652e4d617842797465735065724e756d29008f,  -- in := make([]byte, count*encode.MaxBytesPerNum)
  0x096374726c203a3d20656e636f64652e5075743875696e74333244656c74615363616c6172286e756d732c20696e2c2030290090,  -- ctrl := encode.Put8uint32DeltaScalar(nums, in, 0)
  0x0091,
  0x09622e536574427974657328696e74363428636f756e74202a20656e636f64652e4d617842797465735065724e756d29290092,  -- b.SetBytes(int64(count * encode.MaxBytesPerNum))
  0x09622e526573657454696d657228290093,  -- b.ResetTimer()
  0x09666f722069203a3d20303b2069203c20622e4e3b20692b2b207b0094,  -- for i := 0; i < b.N; i++ {
  0x09094765743875696e74333244656c74614661737428696e2c206f75742c206374726c2c2030290095,  -- Get8uint32DeltaFast(in, out, ctrl, 0)
  0x097d0096,  -- }
  0x097265616453696e6b42203d206f75740097,  -- readSinkB = out
  0x7d0098,  -- }
  0x0099,
  0x766172207265616453696e6b43205b5d75696e743332009a,  -- var readSinkC []uint32
  0x009b,
  0x66756e632042656e63686d61726b4765743875696e7433325363616c61722862202a74657374696e672e4229207b009c,  -- func BenchmarkGet8uint32Scalar(b *testing.B) {
  0x09636f756e74203a3d2038009d,  -- count := 8
  0x096f7574203a3d206d616b65285b5d75696e7433322c20636f756e7429009e,  -- out := make([]uint32, count)
  0x096e756d73203a3d207574696c2e47656e55696e74333228636f756e7429009f,  -- nums := util.GenUint32(count)
  0x09696e203a3d206d616b65285b5d627974652c20636f756e742a656e636f64652e4d617842797465735065724e756d2900a0,  -- in := make([]byte, count*encode.MaxBytesPerNum)
  0x096374726c203a3d20656e636f64652e5075743875696e7433325363616c6172286e756d732c20696e2900a1,  -- ctrl := encode.Put8uint32Scalar(nums, in)
  0x00a2,
  0x09622e536574427974657328696e74363428636f756e74202a20656e636f64652e4d617842797465735065724e756d292900a3,  -- b.SetBytes(int64(count * encode.MaxBytesPerNum))
  0x09622e526573657454696d6572282900a4,  -- b.ResetTimer()
  0x09666f722069203a3d20303b2069203c20622e4e3b20692b2b207b00a5,  -- for i := 0; i < b.N; i++ {
  0x09094765743875696e7433325363616c617228696e2c206f75742c206374726c2900a6,  -- Get8uint32Scalar(in, out, ctrl)
  0x097d00a7,  -- }
  0x097265616453696e6b43203d206f757400a8,  -- readSinkC = out
  0x7d00a9,  -- }
  0x00aa,
  0x766172207265616453696e6b44205b5d75696e74333200ab,  -- var readSinkD []uint32
  0x00ac,
  0x66756e632042656e63686d61726b4765743875696e74333244656c74615363616c61722862202a74657374696e672e4229207b00ad,  -- func BenchmarkGet8uint32DeltaScalar(b *testing.B) {
  0x09636f756e74203a3d203800ae,  -- count := 8
  0x096f7574203a3d206d616b65285b5d75696e7433322c20636f756e742900af,  -- out := make([]uint32, count)
  0x096e756d73203a3d207574696c2e47656e55696e74333228636f756e742900b0,  -- nums := util.GenUint32(count)
  0x097574696c2e536f727455696e743332286e756d732900b1,  -- util.SortUint32(nums)
  0x09696e203a3d206d616b65285b5d627974652c20636f756e742a656e636f64652e4d617842797465735065724e756d2900b2,  -- in := make([]byte, count*encode.MaxBytesPerNum)
  0x096374726c203a3d20656e636f64652e5075743875696e74333244656c74615363616c6172286e756d732c20696e2c20302900b3,  -- ctrl := encode.Put8uint32DeltaScalar(nums, in, 0)
  0x00b4,
  0x09622e536574427974657328696e74363428636f756e74202a20656e636f64652e4d617842797465735065724e756d292900b5,  -- b.SetBytes(int64(count * encode.MaxBytesPerNum))
  0x09622e526573657454696d6572282900b6,  -- b.ResetTimer()
  0x09666f722069203a3d20303b2069203c20622e4e3b20692b2b207b00b7,  -- for i := 0; i < b.N; i++ {
  0x09094765743875696e74333244656c74615363616c617228696e2c206f75742c206374726c2c20302900b8,  -- Get8uint32DeltaScalar(in, out, ctrl, 0)
  0x097d00b9,  -- }
  0x097265616453696e6b44203d206f757400ba,  -- readSinkD = out
  0x7d00bb,  -- }
  0x00bc,
  0x766172207265616453696e6b45205b5d75696e74333200bd,  -- var readSinkE []uint32
  0x00be,
  0x66756e632042656e63686d61726b4765743875696e743332566172696e742862202a74657374696e672e4229207b00bf,  -- func BenchmarkGet8uint32Varint(b *testing.B) {
  0x09636f756e74203a3d203800c0,  -- count := 8
  0x096f7574203a3d206d616b65285b5d75696e7433322c20636f756e742900c1,  -- out := make([]uint32, count)
  0x0964617461203a3d206d616b65285b5d627974652c2062696e6172792e4d6178566172696e744c656e33322a636f756e742900c2,  -- data := make([]byte, binary.MaxVarintLen32*count)
  0x097772697474656e203a3d207574696c2e507574566172696e74287574696c2e47656e55696e74333228636f756e74292c20646174612900c3,  -- written := util.PutVarint(util.GenUint32(count), data)
  0x0964617461203d20646174615b3a7772697474656e5d00c4,  -- data = data[:written]
  0x00c5,
  0x09622e536574427974657328696e74363428636f756e74202a20656e636f64652e4d617842797465735065724e756d292900c6,  -- b.SetBytes(int64(count * encode.MaxBytesPerNum))
  0x09622e526573657454696d6572282900c7,  -- b.ResetTimer()
  0x09666f722069203a3d20303b2069203c20622e4e3b20692b2b207b00c8,  -- for i := 0; i < b.N; i++ {
  0x09097574696c2e476574566172696e7428646174612c206f75742900c9,  -- util.GetVarint(data, out)
  0x097d00ca,  -- }
  0x097265616453696e6b45203d206f757400cb,  -- readSinkE = out
  0x7d00cc,  -- }
  0x00cd,
  0x766172207265616453696e6b46205b5d75696e74333200ce,  -- var readSinkF []uint32
  0x00cf,
  0x66756e632042656e63686d61726b4765743875696e74333244656c7461566172696e742862202a74657374696e672e4229207b00d0,  -- func BenchmarkGet8uint32DeltaVarint(b *testing.B) {
  0x09636f756e74203a3d203800d1,  -- count := 8
  0x096f7574203a3d206d616b65285b5d75696e7433322c20636f756e742900d2,  -- out := make([]uint32, count)
  0x0964617461203a3d206d616b65285b5d627974652c2062696e6172792e4d6178566172696e744c656e33322a636f756e742900d3,  -- data := make([]byte, binary.MaxVarintLen32*count)
  0x097772697474656e203a3d207574696c2e50757444656c7461566172696e74287574696c2e47656e55696e74333228636f756e74292c20646174612c20302900d4,  -- written := util.PutDeltaVarint(util.GenUint32(count), data, 0)
  0x0964617461203d20646174615b3a7772697474656e5d00d5,  -- data = data[:written]
  0x00d6,
  0x09622e536574427974657328696e74363428636f756e74202a20656e636f64652e4d617842797465735065724e756d292900d7,  -- b.SetBytes(int64(count * encode.MaxBytesPerNum))
  0x09622e526573657454696d6572282900d8,  -- b.ResetTimer()
  0x09666f722069203a3d20303b2069203c20622e4e3b20692b2b207b00d9,  -- for i := 0; i < b.N; i++ {
  0x09097574696c2e47657444656c7461566172696e7428646174612c206f75742c20302900da,  -- util.GetDeltaVarint(data, out, 0)
  0x097d00db,  -- }
  0x097265616453696e6b46203d206f757400dc,  -- readSinkF = out
  0x7d00dd]  -- }

/-- `/repo/pkg/stream/writer/writer_test.go`. -/
def writerTestGo : List Nat := [
  0x7061636b616765207772697465720001,  -- package writer
  0x0002,
  0x696d706f727420280003,  -- import (
  0x0922656e636f64696e672f62696e617279220004,  -- "encoding/binary"
  0x0922666d74220005,  -- "fmt"
  0x09226d617468220006,  -- "math"
  0x09226d6174682f72616e64220007,  -- "math/rand"
  0x09227265666c656374220008,  -- "reflect"
  0x092274657374696e67220009,  -- "testing"
  0x092274696d6522000a,  -- "time"
  0x000b,
  0x09226769746875622e636f6d2f7468654d506174656c2f73747265616d76627974652d73696d64676f2f706b672f656e636f646522000c,  -- "github.com/theMPatel/streamvbyte-simdgo/pkg/encode"
  0x09226769746875622e636f6d2f7468654d506174656c2f73747265616d76627974652d73696d64676f2f706b672f73686172656422000d,  -- "github.com/theMPatel/streamvbyte-simdgo/pkg/shared"
  0x09226769746875622e636f6d2f7468654d506174656c2f73747265616d76627974652d73696d64676f2f706b672f73747265616d2f72656164657222000e,  -- "github.com/theMPatel/streamvbyte-simdgo/pkg/stream/reader"
  0x09226769746875622e636f6d2f7468654d506174656c2f73747265616d76627974652d73696d64676f2f706b672f7574696c22000f,  -- "github.com/theMPatel/streamvbyte-simdgo/pkg/util"
  0x290010,  -- )
  0x0011,
  0x66756e6320696e69742829207b0012,  -- func init() {
  0x0972616e642e536565642874696d652e4e6f7728292e556e69784e616e6f2829290013,  -- rand.Seed(time.Now().UnixNano())
  0x7d0014,  -- }
  0x0015,
  0x66756e6320546573745772697465416c6c5363616c61722874202a74657374696e672e5429207b0016,  -- func TestWriteAllScalar(t *testing.T) {
  0x09666f722069203a3d20303b2069203c20363b20692b2b207b0017,  -- for i := 0; i < 6; i++ {
  0x0909636f756e74203a3d20696e74287574696c2e52616e6455696e7433322829202520316536290018,  -- count := int(util.RandUint32() % 1e6)
  0x09096e756d73203a3d207574696c2e47656e55696e74333228636f756e74290019,  -- nums := util.GenUint32(count)
  0x090973747265616d203a3d205772697465416c6c5363616c6172286e756d7329001a,  -- stream := WriteAllScalar(nums)
  0x0909742e52756e28666d742e537072696e746628225772697465416c6c3a202564222c20636f756e74292c2066756e632874202a74657374696e672e5429207b001b,  -- t.Run(fmt.Sprintf("WriteAll: %d", count), func(t *testing.T) {
  0x0909096f7574203a3d206d616b65285b5d75696e7433322c20636f756e7429001c,  -- out := make([]uint32, count)
  0x0909097265616465722e52656164416c6c5363616c617228636f756e742c2073747265616d2c206f757429001d,  -- reader.ReadAllScalar(count, stream, out)
  0x090909696620217265666c6563742e44656570457175616c286e756d732c206f757429207b001e,  -- if !reflect.DeepEqual(nums, out) {
  0x09090909742e466174616c6628226465636f6465642077726f6e67206e756d732229001f,  -- t.Fatalf("decoded wrong nums")
  0x0909097d0020,  -- }
  0x09097d290021,  -- })
  0x097d0022,  -- }
  0x7d0023,  -- }
  0x0024,
  0x66756e6320546573745772697465416c6c44656c74615363616c61722874202a74657374696e672e5429207b0025,  -- func TestWriteAllDeltaScalar(t *testing.T) {
  0x09666f722069203a3d20303b2069203c20363b20692b2b207b0026,  -- for i := 0; i < 6; i++ {
  0x0909636f756e74203a3d20696e74287574696c2e52616e6455696e7433322829202520316536290027,  -- count := int(util.RandUint32() % 1e6)
  0x09096e756d73203a3d207574696c2e47656e55696e74333228636f756e74290028,  -- nums := util.GenUint32(count)
  0x09097574696c2e536f727455696e743332286e756d73290029,  -- util.SortUint32(nums)
  0x0909646966666564203a3d206d616b65285b5d75696e7433322c20636f756e7429002a,  -- diffed := make([]uint32, count)
  0x09097574696c2e44656c7461286e756d732c2064696666656429002b,  -- util.Delta(nums, diffed)
  0x002c,
  0x090973747265616d203a3d205772697465416c6c5363616c61722864696666656429002d,  -- stream := WriteAllScalar(diffed)
  0x0909742e52756e28666d742e537072696e746628225772697465416c6c3a202564222c20636f756e74292c2066756e632874202a74657374696e672e5429207b002e,  -- t.Run(fmt.Sprintf("WriteAll: %d", count), func(t *testing.T) {
  0x09090961637475616c203a3d205772697465416c6c44656c74615363616c6172286e756d732c203029002f,  -- actual := WriteAllDeltaScalar(nums, 0)
  0x090909696620217265666c6563742e44656570457175616c2873747265616d2c2061637475616c29207b0030,  -- if !reflect.DeepEqual(stream, actual) {
  0x09090909742e466174616c66282262616420656e636f64696e6722290031,  -- t.Fatalf("bad encoding")
  0x0909097d0032,  -- }
  0x09097d290033,  -- })
  0x097d0034,  -- }
  0x7d0035,  -- }
  0x0036,
  0x66756e6320546573745772697465416c6c466173742874202a74657374696e672e5429207b0037,  -- func TestWriteAllFast(t *testing.T) {
  0x09696620656e636f64652e4765744d6f64652829203d3d207368617265642e4e6f726d616c207b0038,  -- if encode.GetMode() == shared.Normal {
  0x0909742e536b697066282254657374696e6720656e7669726f6e6d656e7420646f65736e277420737570706f72742074686973207465737422290039,  -- t.Skipf("Testing environment doesn't support this test")
  0x097d003a,  -- }
  0x003b,
  0x09666f722069203a3d20303b2069203c20363b20692b2b207b003c,  -- for i := 0; i < 6; i++ {
  0x0909636f756e74203a3d20696e74287574696c2e52616e6455696e743332282920252031653629003d,  -- count := int(util.RandUint32() % 1e6)
  0x09096e756d73203a3d207574696c2e47656e55696e74333228636f756e7429003e,  -- nums := util.GenUint32(count)
  0x090973747265616d203a3d205772697465416c6c5363616c6172286e756d7329003f,  -- stream := WriteAllScalar(nums)
  0x0909742e52756e28666d742e537072696e746628225772697465416c6c3a202564222c20636f756e74292c2066756e632874202a74657374696e672e5429207b0040,  -- t.Run(fmt.Sprintf("WriteAll: %d", count), func(t *testing.T) {
  0x09090961637475616c203a3d205772697465416c6c46617374286e756d73290041,  -- actual := WriteAllFast(nums)
  0x090909696620217265666c6563742e44656570457175616c2873747265616d2c2061637475616c29207b0042,  -- if !reflect.DeepEqual(stream, actual) {
  0x09090909742e466174616c66282262616420656e636f64696e6722290043,  -- t.Fatalf("bad encoding")
  0x0909097d0044,  -- }
  0x09097d290045,  -- })
  0x097d0046,  -- }
  0x7d0047,  -- }
  0x0048,
  0x66756e6320546573745772697465416c6c44656c7461466173742874202a74657374696e672e5429207b0049,  -- func TestWriteAllDeltaFast(t *testing.T) {
  0x09696620656e636f64652e4765744d6f64652829203d3d207368617265642e4e6f726d616c207b004a,  -- if encode.GetMode() == shared.Normal {
  0x0909742e536b697066282254657374696e6720656e7669726f6e6d656e7420646f65736e277420737570706f7274207468697320746573742229004b,  -- t.Skipf("Testing environment doesn't support this test")
  0x097d004c,  -- }
  0x004d,
  0x09666f722069203a3d20303b2069203c20363b20692b2b207b004e,  -- for i := 0; i < 6; i++ {
  0x0909636f756e74203a3d20696e74287574696c2e52616e6455696e743332282920252031653629004f,  -- count := int(util.RandUint32() % 1e6)
  0x09096e756d73203a3d207574696c2e47656e55696e74333228636f756e74290050,  -- nums := util.GenUint32(count)
  0x09097574696c2e536f727455696e743332286e756d73290051,  -- util.SortUint32(nums)
  0x0909646966666564203a3d206d616b65285b5d75696e7433322c20636f756e74290052,  -- diffed := make([]uint32, count)
  0x09097574696c2e44656c7461286e756d732c20646966666564290053,  -- util.Delta(nums, diffed)
  0x0054,
  0x090973747265616d203a3d205772697465416c6c5363616c617228646966666564290055,  -- stream := WriteAllScalar(diffed)
  0x0909742e52756e28666d742e537072696e746628225772697465416c6c3a202564222c20636f756e74292c2066756e632874202a74657374696e672e5429207b0056,  -- t.Run(fmt.Sprintf("WriteAll: %d", count), func(t *testing.T) {
  0x09090961637475616c203a3d205772697465416c6c44656c746146617374286e756d732c2030290057,  -- actual := WriteAllDeltaFast(nums, 0)
  0x090909696620217265666c6563742e44656570457175616c2873747265616d2c2061637475616c29207b0058,  -- if !reflect.DeepEqual(stream, actual) {
  0x09090909742e466174616c66282262616420656e636f64696e6722290059,  -- t.Fatalf("bad encoding")
  0x0909097d005a,  -- }
  0x09097d29005b,  -- })
  0x097d005c,  -- }
  0x7d005d,  -- }
  0x005e,
  0x766172207265616453696e6b41205b5d62797465005f,  -- var readSinkA []byte
  0x0060,
  0x66756e632042656e63686d61726b5772697465416c6c466173742862202a74657374696e672e4229207b0061,  -- func BenchmarkWriteAllFast(b *testing.B) {
  0x09696620656e636f64652e4765744d6f64652829203d3d207368617265642e4e6f726d616c207b0062,  -- if encode.GetMode() == shared.Normal {
  0x0909622e536b697066282254657374696e6720656e7669726f6e6d656e7420646f65736e277420737570706f72742074686973207465737422290063,  -- b.Skipf("Testing environment doesn't support this test")
  0x097d0064,  -- }
  0x0065,
  0x09666f722069203a3d20303b2069203c20383b20692b2b207b0066,  -- for i := 0; i < 8; i++ {
  0x0909636f756e74203a3d20696e74286d6174682e506f773130286929290067,  -- count := int(math.Pow10(i))
  0x09096e756d73203a3d207574696c2e47656e55696e74333228636f756e74290068,  -- nums := util.GenUint32(count)
  0x0909622e52756e28666d742e537072696e74662822436f756e745f31652564222c2069292c2066756e632862202a74657374696e672e4229207b0069,  -- b.Run(fmt.Sprintf("Count_1e%d", i), func(b *testing.B) {
  0x0909097661722073747265616d205b5d62797465006a,  -- var stream []byte
  0x090909622e536574427974657328696e74363428636f756e74202a20656e636f64652e4d617842797465735065724e756d2929006b,  -- b.SetBytes(int64(count * encode.MaxBytesPerNum))
  0x090909622e526573657454696d65722829006c,  -- b.ResetTimer()
  0x090909666f722069203a3d20303b2069203c20622e4e3b20692b2b207b006d,  -- for i := 0; i < b.N; i++ {
  0x0909090973747265616d203d205772697465416c6c46617374286e756d7329006e,  -- stream = WriteAllFast(nums)
  0x0909097d006f,  -- }
  0x0909097265616453696e6b41203d2073747265616d0070,  -- readSinkA = stream
  0x09097d290071,  -- })
  0x097d0072,  -- }
  0x7d0073,  -- }
  0x0074,
  0x766172207265616453696e6b42205b5d627974650075,  -- var readSinkB []byte
  0x0076,
  0x66756e632042656e63686d61726b5772697465416c6c44656c7461466173742862202a74657374696e672e4229207b0077,  -- func BenchmarkWriteAllDeltaFast(b *testing.B) {
  0x09696620656e636f64652e4765744d6f64652829203d3d207368617265642e4e6f726d616c207b0078,  -- if encode.GetMode() == shared.Normal {
  0x0909622e536b697066282254657374696e6720656e7669726f6e6d656e7420646f65736e277420737570706f72742074686973207465737422290079,  -- b.Skipf("Testing environment doesn't support this test")
  0x097d007a,  -- }
  0x007b,
  0x09666f722069203a3d20303b2069203c20383b20692b2b207b007c,  -- for i := 0; i < 8; i++ {
  0x0909636f756e74203a3d20696e74286d6174682e506f77313028692929007d,  -- count := int(math.Pow10(i))
  0x09096e756d73203a3d207574696c2e47656e55696e74333228636f756e7429007e,  -- nums := util.GenUint32(count)
  0x09097574696c2e536f727455696e743332286e756d7329007f,  -- util.SortUint32(nums)
  0x0909622e52756e28666d742e537072696e74662822436f756e745f31652564222c2069292c2066756e632862202a74657374696e672e4229207b0080,  -- b.Run(fmt.Sprintf("Count_1e%d", i), func(b *testing.B) {
  0x0909097661722073747265616d205b5d627974650081,  -- var stream []byte
  0x090909622e536574427974657328696e74363428636f756e74202a20656e636f64652e4d617842797465735065724e756d29290082,  -- b.SetBytes(int64(count * encode.MaxBytesPerNum))
  0x090909622e526573657454696d657228290083,  -- b.ResetTimer()
  0x090909666f722069203a3d20303b2069203c20622e4e3b20692b2b207b0084,  -- for i := 0; i < b.N; i++ {
  0x0909090973747265616d203d205772697465416c6c44656c746146617374286e756d732c2030290085,  -- stream = WriteAllDeltaFast(nums, 0)
  0x0909097d0086,  -- }
  0x0909097265616453696e6b42203d2073747265616d0087,  -- readSinkB = stream
  0x09097d290088,  -- })
  0x097d0089,  -- }
  0x7d008a,  -- }
  0x008b,
  0x766172207265616453696e6b43205b5d62797465008c,  -- var readSinkC []byte
  0x008d,
  0x66756e632042656e63686d61726b5772697465416c6c5363616c61722862202a74657374696e672e4229207b008e,  -- func BenchmarkWriteAllScalar(b *testing.B) {
  0x09666f722069203a3d20303b2069203c20383b20692b2b207b008f,  -- for i := 0; i < 8; i++ {
  0x0909636f756e74203a3d20696e74286d6174682e506f773130286929290090,  -- count := int(math.Pow10(i))
  0x09096e756d73203a3d207574696c2e47656e55696e74333228636f756e74290091,  -- nums := util.GenUint32(count)
  0x09097574696c2e536f727455696e743332286e756d73290092,  -- util.SortUint32(nums)
  0x0909622e52756e28666d742e537072696e74662822436f756e745f31652564222c2069292c2066756e632862202a74657374696e672e4229207b0093,  -- b.Run(fmt.Sprintf("Count_1e%d", i), func(b *testing.B) {
  0x0909097661722073747265616d205b5d627974650094,  -- var stream []byte
  0x090909622e536574427974657328696e74363428636f756e74202a20656e636f64652e4d617842797465735065724e756d29290095,  -- b.SetBytes(int64(count * encode.MaxBytesPerNum))
  0x090909622e526573657454696d657228290096,  -- b.ResetTimer()
  0x090909666f722069203a3d20303b2069203c20622e4e3b20692b2b207b0097,  -- for i := 0; i < b.N; i++ {
  0x0909090973747265616d203d205772697465416c6c5363616c6172286e756d73290098,  -- stream = WriteAllScalar(nums)
  0x0909097d0099,  -- }
  0x0909097265616453696e6b43203d2073747265616d009a,  -- readSinkC = stream
  0x09097d29009b,  -- })
  0x097d009c,  -- }
  0x7d009d,  -- }
  0x009e,
  0x766172207265616453696e6b44205b5d62797465009f,  -- var readSinkD []byte
  0x00a0,
  0x66756e632042656e63686d61726b5772697465416c6c44656c74615363616c61722862202a74657374696e672e4229207b00a1,  -- func BenchmarkWriteAllDeltaScalar(b *testing.B) {
  0x09666f722069203a3d20303b2069203c20383b20692b2b207b00a2,  -- for i := 0; i < 8; i++ {
  0x0909636f756e74203a3d20696e74286d6174682e506f7731302869292900a3,  -- count := int(math.Pow10(i))
  0x09096e756d73203a3d207574696c2e47656e55696e74333228636f756e742900a4,  -- nums := util.GenUint32(count)
  0x09097574696c2e536f727455696e743332286e756d732900a5,  -- util.SortUint32(nums)
  0x0909622e52756e28666d742e537072696e74662822436f756e745f31652564222c2069292c2066756e632862202a74657374696e672e4229207b00a6,  -- b.Run(fmt.Sprintf("Count_1e%d", i), func(b *testing.B) {
  0x0909097661722073747265616d205b5d6279746500a7,  -- var stream []byte
  0x090909622e536574427974657328696e74363428636f756e74202a20656e636f64652e4d617842797465735065724e756d292900a8,  -- b.SetBytes(int64(count * encode.MaxBytesPerNum))
  0x090909622e526573657454696d6572282900a9,  -- b.ResetTimer()
  0x090909666f722069203a3d20303b2069203c20622e4e3b20692b2b207b00aa,  -- for i := 0; i < b.N; i++ {
  0x0909090973747265616d203d205772697465416c6c44656c74615363616c6172286e756d732c20302900ab,  -- stream = WriteAllDeltaScalar(nums, 0)
  0x0909097d00ac,  -- }
  0x0909097265616453696e6b44203d2073747265616d00ad,  -- readSinkD = stream
  0x09097d2900ae,  -- })
  0x097d00af,  -- }
  0x7d00b0,  -- }
  0x00b1,
  0x766172207265616453696e6b4520696e7400b2,  -- var readSinkE int
  0x00b3,
  0x66756e632042656e63686d61726b5772697465416c6c566172696e742862202a74657374696e672e4229207b00b4,  -- func BenchmarkWriteAllVarint(b *testing.B) {
  0x09666f722069203a3d20303b2069203c20383b20692b2b207b00b5,  -- for i := 0; i < 8; i++ {
  0x0909636f756e74203a3d20696e74286d6174682e506f7731302869292900b6,  -- count := int(math.Pow10(i))
  0x09096e756d73203a3d207574696c2e47656e55696e74333228636f756e742900b7,  -- nums := util.GenUint32(count)
  0x09097574696c2e536f727455696e743332286e756d732900b8,  -- util.SortUint32(nums)
  0x09096f7574203a3d206d616b65285b5d627974652c20636f756e742a62696e6172792e4d6178566172696e744c656e33322900b9,  -- out := make([]byte, count*binary.MaxVarintLen32)
  0x09097772697474656e203a3d203000ba,  -- written := 0
  0x0909622e52756e28666d742e537072696e74662822436f756e745f31652564222c2069292c2066756e632862202a74657374696e672e4229207b00bb,  -- b.Run(fmt.Sprintf("Count_1e%d", i), func(b *testing.B) {
  0x090909622e536574427974657328696e74363428636f756e74202a20656e636f64652e4d617842797465735065724e756d292900bc,  -- b.SetBytes(int64(count * encode.MaxBytesPerNum))
  0x090909622e526573657454696d6572282900bd,  -- b.ResetTimer()
  0x090909666f722069203a3d20303b2069203c20622e4e3b20692b2b207b00be,  -- for i := 0; i < b.N; i++ {
  0x090909097772697474656e203d207574696c2e507574566172696e74286e756d732c206f75742900bf,  -- written = util.PutVarint(nums, out)
  0x0909097d00c0,  -- }
  0x0909097265616453696e6b45203d207772697474656e00c1,  -- readSinkE = written
  0x09097d2900c2,  -- })
  0x097d00c3,  -- }
  0x7d00c4,  -- }
  0x00c5,
  0x766172207265616453696e6b4620696e7400c6,  -- var readSinkF int
  0x00c7,
  0x66756e632042656e63686d61726b5772697465416c6c44656c7461566172696e742862202a74657374696e672e4229207b00c8,  -- func BenchmarkWriteAllDeltaVarint(b *testing.B) {
  0x09666f722069203a3d20303b2069203c20383b20692b2b207b00c9,  -- for i := 0; i < 8; i++ {
  0x0909636f756e74203a3d20696e74286d6174682e506f7731302869292900ca,  -- count := int(math.Pow10(i))
  0x09096e756d73203a3d207574696c2e47656e55696e74333228636f756e742900cb,  -- nums := util.GenUint32(count)
  0x09097574696c2e536f727455696e743332286e756d732900cc,  -- util.SortUint32(nums)
  0x09096f7574203a3d206d616b65285b5d627974652c20636f756e742a62696e6172792e4d6178566172696e744c656e33322900cd,  -- out := make([]byte, count*binary.MaxVarintLen32)
  0x09097772697474656e203a3d203000ce,  -- written := 0
  0x0909622e52756e28666d742e537072696e74662822436f756e745f31652564222c2069292c2066756e632862202a74657374696e672e4229207b00cf,  -- b.Run(fmt.Sprintf("Count_1e%d", i), func(b *testing.B) {
  0x090909622e536574427974657328696e74363428636f756e74202a20656e636f64652e4d617842797465735065724e756d292900d0,  -- b.SetBytes(int64(count * encode.MaxBytesPerNum))
  0x090909622e526573657454696d6572282900d1,  -- b.ResetTimer()
  0x090909666f722069203a3d20303b2069203c20622e4e3b20692b2b207b00d2,  -- for i := 0; i < b.N; i++ {
  0x090909097772697474656e203d207574696c2e50757444656c7461566172696e74286e756d732c206f75742c20302900d3,  -- written = util.PutDeltaVarint(nums, out, 0)
  0x0909097d00d4,  -- }
  0x0909097265616453696e6b45203d207772697474656e00d5,  -- readSinkE = written
  0x09097d2900d6,  -- })
  0x097d00d7,  -- }
  0x7d00d8]  -- }

/-- `/repo/pkg/stream/reader/reader_test.go`. -/
def readerTestGo : List Nat := [
  0x7061636b616765207265616465720001,  -- package reader
  0x0002,
  0x696d706f727420280003,  -- import (
  0x0922656e636f64696e672f62696e617279220004,  -- "encoding/binary"
  0x0922666d74220005,  -- "fmt"
  0x09226d617468220006,  -- "math"
  0x09226d6174682f72616e64220007,  -- "math/rand"
  0x09227265666c656374220008,  -- "reflect"
  0x092274657374696e67220009,  -- "testing"
  0x092274696d6522000a,  -- "time"
  0x000b,
  0x09226769746875622e636f6d2f7468654d506174656c2f73747265616d76627974652d73696d64676f2f706b672f6465636f646522000c,  -- "github.com/theMPatel/streamvbyte-simdgo/pkg/decode"
  0x09226769746875622e636f6d2f7468654d506174656c2f73747265616d76627974652d73696d64676f2f706b672f656e636f646522000d,  -- "github.com/theMPatel/streamvbyte-simdgo/pkg/encode"
  0x09226769746875622e636f6d2f7468654d506174656c2f73747265616d76627974652d73696d64676f2f706b672f73686172656422000e,  -- "github.com/theMPatel/streamvbyte-simdgo/pkg/shared"
  0x09226769746875622e636f6d2f7468654d506174656c2f73747265616d76627974652d73696d64676f2f706b672f73747265616d2f77726974657222000f,  -- "github.com/theMPatel/streamvbyte-simdgo/pkg/stream/writer"
  0x09226769746875622e636f6d2f7468654d506174656c2f73747265616d76627974652d73696d64676f2f706b672f7574696c220010,  -- "github.com/theMPatel/streamvbyte-simdgo/pkg/util"
  0x290011,  -- )
  0x0012,
  0x66756e6320696e69742829207b0013,  -- func init() {
  0x0972616e642e536565642874696d652e4e6f7728292e556e69784e616e6f2829290014,  -- rand.Seed(time.Now().UnixNano())
  0x7d0015,  -- }
  0x0016,
  0x66756e63205465737452656164416c6c5363616c61722874202a74657374696e672e5429207b0017,  -- func TestReadAllScalar(t *testing.T) {
  0x09666f722069203a3d20303b2069203c20363b20692b2b207b0018,  -- for i := 0; i < 6; i++ {
  0x0909636f756e74203a3d20696e74287574696c2e52616e6455696e7433322829202520316536290019,  -- count := int(util.RandUint32() % 1e6)
  0x09096e756d73203a3d207574696c2e47656e55696e74333228636f756e7429001a,  -- nums := util.GenUint32(count)
  0x090973747265616d203a3d207772697465722e5772697465416c6c5363616c6172286e756d7329001b,  -- stream := writer.WriteAllScalar(nums)
  0x0909742e52756e28666d742e537072696e7466282252656164416c6c3a202564222c20636f756e74292c2066756e632874202a74657374696e672e5429207b001c,  -- t.Run(fmt.Sprintf("ReadAll: %d", count), func(t *testing.T) {
  0x0909096f7574203a3d206d616b65285b5d75696e7433322c20636f756e7429001d,  -- out := make([]uint32, count)
  0x09090952656164416c6c5363616c617228636f756e742c2073747265616d2c206f757429001e,  -- ReadAllScalar(count, stream, out)
  0x090909696620217265666c6563742e44656570457175616c286e756d732c206f757429207b001f,  -- if !reflect.DeepEqual(nums, out) {
  0x09090909742e466174616c6628226465636f6465642077726f6e67206e756d7322290020,  -- t.Fatalf("decoded wrong nums")
  0x0909097d0021,  -- }
  0x09097d290022,  -- })
  0x097d0023,  -- }
  0x7d0024,  -- }
  0x0025,
  0x66756e63205465737452656164416c6c44656c74615363616c61722874202a74657374696e672e5429207b0026,  -- func TestReadAllDeltaScalar(t *testing.T) {
  0x09666f722069203a3d20303b2069203c20363b20692b2b207b0027,  -- for i := 0; i < 6; i++ {
  0x0909636f756e74203a3d20696e74287574696c2e52616e6455696e7433322829202520316536290028,  -- count := int(util.RandUint32() % 1e6)
  0x09096e756d73203a3d207574696c2e47656e55696e74333228636f756e74290029,  -- nums := util.GenUint32(count)
  0x09097574696c2e536f727455696e743332286e756d7329002a,  -- util.SortUint32(nums)
  0x090973747265616d203a3d207772697465722e5772697465416c6c44656c74615363616c6172286e756d732c203029002b,  -- stream := writer.WriteAllDeltaScalar(nums, 0)
  0x0909742e52756e28666d742e537072696e7466282252656164416c6c3a202564222c20636f756e74292c2066756e632874202a74657374696e672e5429207b002c,  -- t.Run(fmt.Sprintf("ReadAll: %d", count), func(t *testing.T) {
  0x0909096f7574203a3d206d616b65285b5d75696e7433322c20636f756e7429002d,  -- out := make([]uint32, count)
  0x09090952656164416c6c44656c74615363616c617228636f756e742c2073747265616d2c206f75742c203029002e,  -- ReadAllDeltaScalar(count, stream, out, 0)
  0x090909696620217265666c6563742e44656570457175616c286e756d732c206f757429207b002f,  -- if !reflect.DeepEqual(nums, out) {
  0x09090909742e466174616c6628226465636f6465642077726f6e67206e756d7322290030,  -- t.Fatalf("decoded wrong nums")
  0x0909097d0031,  -- }
  0x09097d290032,  -- })
  0x097d0033,  -- }
  0x7d0034,  -- }
  0x0035,
  0x66756e63205465737452656164416c6c466173742874202a74657374696e672e5429207b0036,  -- func TestReadAllFast(t *testing.T) {
  0x096966206465636f64652e4765744d6f64652829203d3d207368617265642e4e6f726d616c207b0037,  -- if decode.GetMode() == shared.Normal {
  0x0909742e536b697066282254657374696e6720656e7669726f6e6d656e7420646f65736e277420737570706f72742074686973207465737422290038,  -- t.Skipf("Testing environment doesn't support this test")
  0x097d0039,  -- }
  0x003a,
  0x09666f722069203a3d20303b2069203c20363b20692b2b207b003b,  -- for i := 0; i < 6; i++ {
  0x0909636f756e74203a3d20696e74287574696c2e52616e6455696e743332282920252031653629003c,  -- count := int(util.RandUint32() % 1e6)
  0x09096e756d73203a3d207574696c2e47656e55696e74333228636f756e7429003d,  -- nums := util.GenUint32(count)
  0x090973747265616d203a3d207772697465722e5772697465416c6c5363616c6172286e756d7329003e,  -- stream := writer.WriteAllScalar(nums)
  0x0909742e52756e28666d742e537072696e7466282252656164416c6c3a202564222c20636f756e74292c2066756e632874202a74657374696e672e5429207b003f,  -- t.Run(fmt.Sprintf("ReadAll: %d", count), func(t *testing.T) {
  0x0909096f7574203a3d206d616b65285b5d75696e7433322c20636f756e74290040,  -- out := make([]uint32, count)
  0x09090952656164416c6c4661737428636f756e742c2073747265616d2c206f7574290041,  -- ReadAllFast(count, stream, out)
  0x090909696620217265666c6563742e44656570457175616c286e756d732c206f757429207b0042,  -- if !reflect.DeepEqual(nums, out) {
  0x09090909742e466174616c6628226465636f6465642077726f6e67206e756d7322290043,  -- t.Fatalf("decoded wrong nums")
  0x0909097d0044,  -- }
  0x09097d290045,  -- })
  0x097d0046,  -- }
  0x7d0047,  -- }
  0x0048,
  0x66756e63205465737452656164416c6c44656c7461466173742874202a74657374696e672e5429207b0049,  -- func TestReadAllDeltaFast(t *testing.T) {
  0x096966206465636f64652e4765744d6f64652829203d3d207368617265642e4e6f726d616c207b004a,  -- if decode.GetMode() == shared.Normal {
  0x0909742e536b697066282254657374696e6720656e7669726f6e6d656e7420646f65736e277420737570706f7274207468697320746573742229004b,  -- t.Skipf("Testing environment doesn't support this test")
  0x097d004c,  -- }
  0x004d,
  0x09666f722069203a3d20303b2069203c20363b20692b2b207b004e,  -- for i := 0; i < 6; i++ {
  0x0909636f756e74203a3d20696e74287574696c2e52616e6455696e743332282920252031653629004f,  -- count := int(util.RandUint32() % 1e6)
  0x09096e756d73203a3d207574696c2e47656e55696e74333228636f756e74290050,  -- nums := util.GenUint32(count)
  0x09097574696c2e536f727455696e743332286e756d73290051,  -- util.SortUint32(nums)
  0x0909646966666564203a3d206d616b65285b5d75696e7433322c20636f756e74290052,  -- diffed := make([]uint32, count)
  0x09097574696c2e44656c7461286e756d732c20646966666564290053,  -- util.Delta(nums, diffed)
  0x0054,
  0x090973747265616d203a3d207772697465722e5772697465416c6c5363616c617228646966666564290055,  -- stream := writer.WriteAllScalar(diffed)
  0x0909742e52756e28666d742e537072696e7466282252656164416c6c3a202564222c20636f756e74292c2066756e632874202a74657374696e672e5429207b0056,  -- t.Run(fmt.Sprintf("ReadAll: %d", count), func(t *testing.T) {
  0x0909096f7574203a3d206d616b65285b5d75696e7433322c20636f756e74290057,  -- out := make([]uint32, count)
  0x09090952656164416c6c44656c74614661737428636f756e742c2073747265616d2c206f75742c2030290058,  -- ReadAllDeltaFast(count, stream, out, 0)
  0x090909696620217265666c6563742e44656570457175616c286e756d732c206f757429207b0059,  -- if !reflect.DeepEqual(nums, out) {
  0x09090909742e466174616c6628226465636f6465642077726f6e67206e756d732229005a,  -- t.Fatalf("decoded wrong nums")
  0x0909097d005b,  -- }
  0x09097d29005c,  -- })
  0x097d005d,  -- }
  0x7d005e,  -- }
  0x005f,
  0x766172207265616453696e6b41205b5d75696e7433320060,  -- var readSinkA []uint32
  0x0061,
  0x66756e632042656e63686d61726b52656164416c6c466173742862202a74657374696e672e4229207b0062,  -- func BenchmarkReadAllFast(b *testing.B) {
  0x096966206465636f64652e4765744d6f64652829203d3d207368617265642e4e6f726d616c207b0063,  -- if decode.GetMode() == shared.Normal {
  0x0909622e536b697066282254657374696e6720656e7669726f6e6d656e7420646f65736e277420737570706f72742074686973207465737422290064,  -- b.Skipf("Testing environment doesn't support this test")
  0x097d0065,  -- }
  0x0066,
  0x09666f722069203a3d20303b2069203c20383b20692b2b207b0067,  -- for i := 0; i < 8; i++ {
  0x0909636f756e74203a3d20696e74286d6174682e506f773130286929290068,  -- count := int(math.Pow10(i))
  0x09096e756d73203a3d207574696c2e47656e55696e74333228636f756e74290069,  -- nums := util.GenUint32(count)
  0x090973747265616d203a3d207772697465722e5772697465416c6c5363616c6172286e756d7329006a,  -- stream := writer.WriteAllScalar(nums)
  0x09096f7574203a3d206d616b65285b5d75696e7433322c20636f756e7429006b,  -- out := make([]uint32, count)
  0x0909622e52756e28666d742e537072696e74662822436f756e745f31652564222c2069292c2066756e632862202a74657374696e672e4229207b006c,  -- b.Run(fmt.Sprintf("Count_1e%d", i), func(b *testing.B) {
  0x090909622e536574427974657328696e74363428636f756e74202a20656e636f64652e4d617842797465735065724e756d2929006d,  -- b.SetBytes(int64(count * encode.MaxBytesPerNum))
  0x090909622e526573657454696d65722829006e,  -- b.ResetTimer()
  0x090909666f722069203a3d20303b2069203c20622e4e3b20692b2b207b006f,  -- for i := 0; i < b.N; i++ {
  0x0909090952656164416c6c4661737428636f756e742c2073747265616d2c206f7574290070,  -- ReadAllFast(count, stream, out)
  0x0909097d0071,  -- }
  0x0909097265616453696e6b41203d206f75740072,  -- readSinkA = out
  0x09097d290073,  -- })
  0x097d0074,  -- }
  0x7d0075,  -- }
  0x0076,
  0x766172207265616453696e6b42205b5d75696e7433320077,  -- var readSinkB []uint32
  0x0078,
  0x66756e632042656e63686d61726b52656164416c6c44656c7461466173742862202a74657374696e672e4229207b0079,  -- func BenchmarkReadAllDeltaFast(b *testing.B) {
  0x096966206465636f64652e4765744d6f64652829203d3d207368617265642e4e6f726d616c207b007a,  -- if decode.GetMode() == shared.Normal {
  0x0909622e536b697066282254657374696e6720656e7669726f6e6d656e7420646f65736e277420737570706f7274207468697320746573742229007b,  -- b.Skipf("Testing environment doesn't support this test")
  0x097d007c,  -- }
  0x007d,
  0x09666f722069203a3d20303b2069203c20383b20692b2b207b007e,  -- for i := 0; i < 8; i++ {
  0x0909636f756e74203a3d20696e74286d6174682e506f77313028692929007f,  -- count := int(math.Pow10(i))
  0x09096e756d73203a3d207574696c2e47656e55696e74333228636f756e74290080,  -- nums := util.GenUint32(count)
  0x09097574696c2e536f727455696e743332286e756d73290081,  -- util.SortUint32(nums)
  0x090973747265616d203a3d207772697465722e5772697465416c6c44656c74615363616c6172286e756d732c2030290082,  -- stream := writer.WriteAllDeltaScalar(nums, 0)
  0x09096f7574203a3d206d616b65285b5d75696e7433322c20636f756e74290083,  -- out := make([]uint32, count)
  0x0909622e52756e28666d742e537072696e74662822436f756e745f31652564222c2069292c2066756e632862202a74657374696e672e4229207b0084,  -- b.Run(fmt.Sprintf("Count_1e%d", i), func(b *testing.B) {
  0x090909622e536574427974657328696e74363428636f756e74202a20656e636f64652e4d617842797465735065724e756d29290085,  -- b.SetBytes(int64(count * encode.MaxBytesPerNum))
  0x090909622e526573657454696d657228290086,  -- b.ResetTimer()
  0x090909666f722069203a3d20303b2069203c20622e4e3b20692b2b207b0087,  -- for i := 0; i < b.N; i++ {
  0x0909090952656164416c6c44656c74614661737428636f756e742c2073747265616d2c206f75742c2030290088,  -- ReadAllDeltaFast(count, stream, out, 0)
  0x0909097d0089,  -- }
  0x0909097265616453696e6b42203d206f7574008a,  -- readSinkB = out
  0x09097d29008b,  -- })
  0x097d008c,  -- }
  0x7d008d,  -- }
  0x008e,
  0x766172207265616453696e6b43205b5d75696e743332008f,  -- var readSinkC []uint32
  0x0090,
  0x66756e632042656e63686d61726b52656164416c6c5363616c61722862202a74657374696e672e4229207b0091,  -- func BenchmarkReadAllScalar(b *testing.B) {
  0x09666f722069203a3d20303b2069203c20383b20692b2b207b0092,  -- for i := 0; i < 8; i++ {
  0x0909636f756e74203a3d20696e74286d6174682e506f773130286929290093,  -- count := int(math.Pow10(i))
  0x09096e756d73203a3d207574696c2e47656e55696e74333228636f756e74290094,  -- nums := util.GenUint32(count)
  0x09097574696c2e536f727455696e743332286e756d73290095,  -- util.SortUint32(nums)
  0x090973747265616d203a3d207772697465722e5772697465416c6c5363616c6172286e756d73290096,  -- stream := writer.WriteAllScalar(nums)
  0x09096f7574203a3d206d616b65285b5d75696e7433322c20636f756e74290097,  -- out := make([]uint32, count)
  0x0909622e52756e28666d742e537072696e74662822436f756e745f31652564222c2069292c2066756e632862202a74657374696e672e4229207b0098,  -- b.Run(fmt.Sprintf("Count_1e%d", i), func(b *testing.B) {
  0x090909622e536574427974657328696e74363428636f756e74202a20656e636f64652e4d617842797465735065724e756d29290099,  -- b.SetBytes(int64(count * encode.MaxBytesPerNum))
  0x090909622e526573657454696d65722829009a,  -- b.ResetTimer()
  0x090909666f722069203a3d20303b2069203c20622e4e3b20692b2b207b009b,  -- for i := 0; i < b.N; i++ {
  0x0909090952656164416c6c5363616c617228636f756e742c2073747265616d2c206f757429009c,  -- ReadAllScalar(count, stream, out)
  0x0909097d009d,  -- }
  0x0909097265616453696e6b43203d206f7574009e,  -- readSinkC = out
  0x09097d29009f,  -- })
  0x097d00a0,  -- }
  0x7d00a1,  -- }
  0x00a2,
  0x766172207265616453696e6b44205b5d75696e74333200a3,  -- var readSinkD []uint32
  0x00a4,
  0x66756e632042656e63686d61726b52656164416c6c44656c74615363616c61722862202a74657374696e672e4229207b00a5,  -- func BenchmarkReadAllDeltaScalar(b *testing.B) {
  0x09666f722069203a3d20303b2069203c20383b20692b2b207b00a6,  -- for i := 0; i < 8; i++ {
  0x0909636f756e74203a3d20696e74286d6174682e506f7731302869292900a7,  -- count := int(math.Pow10(i))
  0x09096e756d73203a3d207574696c2e47656e55696e74333228636f756e742900a8,  -- nums := util.GenUint32(count)
  0x09097574696c2e536f727455696e743332286e756d732900a9,  -- util.SortUint32(nums)
  0x090973747265616d203a3d207772697465722e5772697465416c6c44656c74615363616c6172286e756d732c20302900aa,  -- stream := writer.WriteAllDeltaScalar(nums, 0)
  0x09096f7574203a3d206d616b65285b5d75696e7433322c20636f756e742900ab,  -- out := make([]uint32, count)
  0x0909622e52756e28666d742e537072696e74662822436f756e745f31652564222c2069292c2066756e632862202a74657374696e672e4229207b00ac,  -- b.Run(fmt.Sprintf("Count_1e%d", i), func(b *testing.B) {
  0x090909622e536574427974657328696e74363428636f756e74202a20656e636f64652e4d617842797465735065724e756d292900ad,  -- b.SetBytes(int64(count * encode.MaxBytesPerNum))
  0x090909622e526573657454696d6572282900ae,  -- b.ResetTimer()
  0x090909666f722069203a3d20303b2069203c20622e4e3b20692b2b207b00af,  -- for i := 0; i < b.N; i++ {
  0x0909090952656164416c6c44656c74615363616c617228636f756e742c2073747265616d2c206f75742c20302900b0,  -- ReadAllDeltaScalar(count, stream, out, 0)
  0x0909097d00b1,  -- }
  0x0909097265616453696e6b44203d206f757400b2,  -- readSinkD = out
  0x09097d2900b3,  -- })
  0x097d00b4,  -- }
  0x7d00b5,  -- }
  0x00b6,
  0x766172207265616453696e6b45205b5d75696e74333200b7,  -- var readSinkE []uint32
  0x00b8,
  0x66756e632042656e63686d61726b52656164416c6c566172696e742862202a74657374696e672e4229207b00b9,  -- func BenchmarkReadAllVarint(b *testing.B) {
  0x09666f722069203a3d20303b2069203c20383b20692b2b207b00ba,  -- for i := 0; i < 8; i++ {
  0x0909636f756e74203a3d20696e74286d6174682e506f7731302869292900bb,  -- count := int(math.Pow10(i))
  0x09096f7574203a3d206d616b65285b5d75696e7433322c20636f756e742900bc,  -- out := make([]uint32, count)
  0x090964617461203a3d206d616b65285b5d627974652c2062696e6172792e4d6178566172696e744c656e33322a636f756e742900bd,  -- data := make([]byte, binary.MaxVarintLen32*count)
  0x09096e756d73203a3d207574696c2e47656e55696e74333228636f756e742900be,  -- nums := util.GenUint32(count)
  0x09097574696c2e536f727455696e743332286e756d732900bf,  -- util.SortUint32(nums)
  0x09097772697474656e203a3d207574696c2e507574566172696e74286e756d732c20646174612900c0,  -- written := util.PutVarint(nums, data)
  0x090964617461203d20646174615b3a7772697474656e5d00c1,  -- data = data[:written]
  0x0909622e52756e28666d742e537072696e74662822436f756e745f31652564222c2069292c2066756e632862202a74657374696e672e4229207b00c2,  -- b.Run(fmt.Sprintf("Count_1e%d", i), func(b *testing.B) {
  0x090909622e536574427974657328696e74363428636f756e74202a20656e636f64652e4d617842797465735065724e756d292900c3,  -- b.SetBytes(int64(count * encode.MaxBytesPerNum))
  0x090909622e526573657454696d6572282900c4,  -- b.ResetTimer()
  0x090909666f722069203a3d20303b2069203c20622e4e3b20692b2b207b00c5,  -- for i := 0; i < b.N; i++ {
  0x090909097574696c2e476574566172696e7428646174612c206f75742900c6,  -- util.GetVarint(data, out)
  0x0909097d00c7,  -- }
  0x0909097265616453696e6b42203d206f757400c8,  -- readSinkB = out
  0x09097d2900c9,  -- })
  0x097d00ca,  -- }
  0x7d00cb,  -- }
  0x00cc,
  0x766172207265616453696e6b46205b5d75696e74333200cd,  -- var readSinkF []uint32
  0x00ce,
  0x66756e632042656e63686d61726b52656164416c6c44656c7461566172696e742862202a74657374696e672e4229207b00cf,  -- func BenchmarkReadAllDeltaVarint(b *testing.B) {
  0x09666f722069203a3d20303b2069203c20383b20692b2b207b00d0,  -- for i := 0; i < 8; i++ {
  0x0909636f756e74203a3d20696e74286d6174682e506f7731302869292900d1,  -- count := int(math.Pow10(i))
  0x09096f7574203a3d206d616b65285b5d75696e7433322c20636f756e742900d2,  -- out := make([]uint32, count)
  0x090964617461203a3d206d616b65285b5d627974652c2062696e6172792e4d6178566172696e744c656e33322a636f756e742900d3,  -- data := make([]byte, binary.MaxVarintLen32*count)
  0x09096e756d73203a3d207574696c2e47656e55696e74333228636f756e742900d4,  -- nums := util.GenUint32(count)
  0x09097574696c2e536f727455696e743332286e756d732900d5,  -- util.SortUint32(nums)
  0x09097772697474656e203a3d207574696c2e50757444656c7461566172696e74286e756d732c20646174612c20302900d6,  -- written := util.PutDeltaVarint(nums, data, 0)
  0x090964617461203d20646174615b3a7772697474656e5d00d7,  -- data = data[:written]
  0x0909622e52756e28666d742e537072696e74662822436f756e745f31652564222c2069292c2066756e632862202a74657374696e672e4229207b00d8,  -- b.Run(fmt.Sprintf("Count_1e%d", i), func(b *testing.B) {
  0x090909622e536574427974657328696e74363428636f756e74202a20656e636f64652e4d617842797465735065724e756d292900d9,  -- b.SetBytes(int64(count * encode.MaxBytesPerNum))
  0x090909622e526573657454696d6572282900da,  -- b.ResetTimer()
  0x090909666f722069203a3d20303b2069203c20622e4e3b20692b2b207b00db,  -- for i := 0; i < b.N; i++ {
  0x090909097574696c2e47657444656c7461566172696e7428646174612c206f75742c20302900dc,  -- util.GetDeltaVarint(data, out, 0)
  0x0909097d00dd,  -- }
  0x0909097265616453696e6b42203d206f757400de,  -- readSinkB = out
  0x09097d2900df,  -- })
  0x097d00e0,  -- }
  0x7d00e1]  -- }

/-- `/repo/pkg/util/varint_test.go`. -/
def varintTestGo : List Nat := [
  0x7061636b616765207574696c0001,  -- package util
  0x0002,
  0x696d706f727420280003,  -- import (
  0x0922656e636f64696e672f62696e617279220004,  -- "encoding/binary"
  0x09227265666c656374220005,  -- "reflect"
  0x092274657374696e67220006,  -- "testing"
  0x290007,  -- )
  0x0008,
  0x66756e632054657374566172696e74526f756e64547269702874202a74657374696e672e5429207b0009,  -- func TestVarintRoundTrip(t *testing.T) {
  0x09636f756e74203a3d2038000a,  -- count := 8
  0x096e756d73203a3d2047656e55696e74333228636f756e7429000b,  -- nums := GenUint32(count)
  0x096f7574203a3d206d616b65285b5d627974652c20636f756e742a62696e6172792e4d6178566172696e744c656e333229000c,  -- out := make([]byte, count*binary.MaxVarintLen32)
  0x097772697474656e203a3d20507574566172696e74286e756d732c206f757429000d,  -- written := PutVarint(nums, out)
  0x096f7574203d206f75745b3a7772697474656e5d000e,  -- out = out[:written]
  0x000f,
  0x0961637475616c203a3d206d616b65285b5d75696e7433322c20636f756e74290010,  -- actual := make([]uint32, count)
  0x0972656164203a3d20476574566172696e74286f75742c2061637475616c290011,  -- read := GetVarint(out, actual)
  0x0012,
  0x096966207772697474656e20213d2072656164207b0013,  -- if written != read {
  0x0909742e466174616c662822657870656374656420746f20726561642025642c20676f74202564222c207772697474656e2c2072656164290014,  -- t.Fatalf("expected to read %d, got %d", written, read)
  0x097d0015,  -- }
  0x0016,
  0x09696620217265666c6563742e44656570457175616c286e756d732c2061637475616c29207b0017,  -- if !reflect.DeepEqual(nums, actual) {
  0x0909742e466174616c662822657870656374656420252b762c20676f7420252b76222c206e756d732c2061637475616c290018,  -- t.Fatalf("expected %+v, got %+v", nums, actual)
  0x097d0019,  -- }
  0x7d001a,  -- }
  0x001b,
  0x66756e632054657374566172696e7444656c7461526f756e64547269702874202a74657374696e672e5429207b001c,  -- func TestVarintDeltaRoundTrip(t *testing.T) {
  0x09636f756e74203a3d2038001d,  -- count := 8
  0x096e756d73203a3d2047656e55696e74333228636f756e7429001e,  -- nums := GenUint32(count)
  0x09536f727455696e743332286e756d7329001f,  -- SortUint32(nums)
  0x096f7574203a3d206d616b65285b5d627974652c20636f756e742a62696e6172792e4d6178566172696e744c656e3332290020,  -- out := make([]byte, count*binary.MaxVarintLen32)
  0x097772697474656e203a3d2050757444656c7461566172696e74286e756d732c206f75742c2030290021,  -- written := PutDeltaVarint(nums, out, 0)
  0x096f7574203d206f75745b3a7772697474656e5d0022,  -- out = out[:written]
  0x0023,
  0x0961637475616c203a3d206d616b65285b5d75696e7433322c20636f756e74290024,  -- actual := make([]uint32, count)
  0x0972656164203a3d2047657444656c7461566172696e74286f75742c2061637475616c2c2030290025,  -- read := GetDeltaVarint(out, actual, 0)
  0x0026,
  0x096966207772697474656e20213d2072656164207b0027,  -- if written != read {
  0x0909742e466174616c662822657870656374656420746f20726561642025642c20676f74202564222c207772697474656e2c2072656164290028,  -- t.Fatalf("expected to read %d, got %d", written, read)
  0x097d0029,  -- }
  0x002a,
  0x09696620217265666c6563742e44656570457175616c286e756d732c2061637475616c29207b002b,  -- if !reflect.DeepEqual(nums, actual) {
  0x0909742e466174616c662822657870656374656420252b762c20676f7420252b76222c206e756d732c2061637475616c29002c,  -- t.Fatalf("expected %+v, got %+v", nums, actual)
  0x097d002d,  -- }
  0x7d002e]  -- }

end SVB.Sources
