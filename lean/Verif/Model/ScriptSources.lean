/-!
# The texts of the programs of `/repo`: the generators and the benchmark tool

GENERATED by `/verif/scripts/gen_scripts.py`, in the format of `Sources.lean`: one number per line of the file, its bytes
followed by two bytes for the line number, read as a big-endian number.  `Verif.Model.ScriptText` reads them.
-/
set_option autoImplicit false
set_option maxRecDepth 100000

namespace SVB.Sources

/-- `/repo/pkg/shared/main/gentables.go`. -/
def gentablesGo : List Nat := [
  0x7061636b616765206d61696e0001,  -- package main
  0x0002,
  0x696d706f727420280003,  -- import (
  0x09226279746573220004,  -- "bytes"
  0x0922666c6167220005,  -- "flag"
  0x0922666d74220006,  -- "fmt"
  0x0922676f2f666f726d6174220007,  -- "go/format"
  0x0922696f220008,  -- "io"
  0x09226c6f67220009,  -- "log"
  0x09226f7322000a,  -- "os"
  0x000b,
  0x09226769746875622e636f6d2f706b672f6572726f727322000c,  -- "github.com/pkg/errors"
  0x09226769746875622e636f6d2f7468654d506174656c2f73747265616d76627974652d73696d64676f2f706b672f7574696c22000d,  -- "github.com/theMPatel/streamvbyte-simdgo/pkg/util"
  0x29000e,  -- )
  0x000f,
  0x76617220280010,  -- var (
  0x09664f757420202020203d20666c61672e537472696e6728226f7574222c2022222c20227061746820746f206f757470757422290011,  -- fOut     = flag.String("out", "", "path to output")
  0x09665061636b616765203d20666c61672e537472696e6728227061636b616765222c2022736861726564222c20227061636b616765206e616d6522290012,  -- fPackage = flag.String("package", "shared", "package name")
  0x290013,  -- )
  0x0014,
  0x636f6e7374204d6178436f6e74726f6c42797465203d2031203c3c20380015,  -- const MaxControlByte = 1 << 8
  0x0016,
  0x66756e63206d61696e2829207b0017,  -- func main() {
  0x09666c61672e506172736528290018,  -- flag.Parse()
  0x0019,
  0x096966202a664f7574203d3d202222207b001a,  -- if *fOut == "" {
  0x09096c6f672e466174616c6628226f757466696c652063616e6e6f7420626520656d7074792229001b,  -- log.Fatalf("outfile cannot be empty")
  0x097d001c,  -- }
  0x001d,
  0x096f7574203a3d202662797465732e4275666665727b7d001e,  -- out := &bytes.Buffer{}
  0x001f,
  0x095f2c205f203d20666d742e467072696e746c6e286f75742c20222f2f20436f64652067656e6572617465642062792067656e7461626c65732e20444f204e4f5420454449542e22290020,  -- _, _ = fmt.Fprintln(out, "// Code generated by gentables. DO NOT EDIT.")
  0x095f2c205f203d20666d742e467072696e7466286f75742c20225c6e7061636b6167652025735c6e222c202a665061636b616765290021,  -- _, _ = fmt.Fprintf(out, "\npackage %s\n", *fPackage)
  0x0022,
  0x09696620657272203a3d2067656e5065724e756d4c656e6774685461626c65286f7574293b2065727220213d206e696c207b0023,  -- if err := genPerNumLengthTable(out); err != nil {
  0x09096c6f672e466174616c6628226661696c656420746f2067656e20706572206e756d206c656e677468207461626c6522290024,  -- log.Fatalf("failed to gen per num length table")
  0x097d0025,  -- }
  0x0026,
  0x09696620657272203a3d2067656e506572517561644c656e6774685461626c65286f7574293b2065727220213d206e696c207b0027,  -- if err := genPerQuadLengthTable(out); err != nil {
  0x09096c6f672e466174616c6628226661696c656420746f2067656e2073756d206c656e677468207461626c6522290028,  -- log.Fatalf("failed to gen sum length table")
  0x097d0029,  -- }
  0x002a,
  0x09696620657272203a3d2067656e456e636f646553687566666c655461626c65286f7574293b2065727220213d206e696c207b002b,  -- if err := genEncodeShuffleTable(out); err != nil {
  0x09096c6f672e466174616c6628226661696c656420746f2067656e20656e636f64652073687566666c65207461626c652229002c,  -- log.Fatalf("failed to gen encode shuffle table")
  0x097d002d,  -- }
  0x002e,
  0x09696620657272203a3d2067656e4465636f646553687566666c655461626c65286f7574293b2065727220213d206e696c207b002f,  -- if err := genDecodeShuffleTable(out); err != nil {
  0x09096c6f672e466174616c6628226661696c656420746f2067656e206465636f64652073687566666c65207461626c6522290030,  -- log.Fatalf("failed to gen decode shuffle table")
  0x097d0031,  -- }
  0x0032,
  0x0966696e616c2c20657272203a3d20666f726d61742e536f75726365286f75742e42797465732829290033,  -- final, err := format.Source(out.Bytes())
  0x0969662065727220213d206e696c207b0034,  -- if err != nil {
  0x09096c6f672e466174616c6628226661696c656420746f20676f20666d74206f757470757422290035,  -- log.Fatalf("failed to go fmt output")
  0x097d0036,  -- }
  0x0037,
  0x0966696c654f75742c20657272203a3d206f732e437265617465282a664f7574290038,  -- fileOut, err := os.Create(*fOut)
  0x0969662065727220213d206e696c207b0039,  -- if err != nil {
  0x09096c6f672e466174616c6628226661696c656420746f206f70656e3a202573202573222c202a664f75742c2065727229003a,  -- log.Fatalf("failed to open: %s %s", *fOut, err)
  0x097d003b,  -- }
  0x096465666572207574696c2e53696c656e74436c6f73652866696c654f757429003c,  -- defer util.SilentClose(fileOut)
  0x003d,
  0x095f2c20657272203d2066696c654f75742e57726974652866696e616c29003e,  -- _, err = fileOut.Write(final)
  0x0969662065727220213d206e696c207b003f,  -- if err != nil {
  0x09096c6f672e466174616c6628226661696c656420746f2077726974652067656e657261746564207461626c657320746f2066696c6522290040,  -- log.Fatalf("failed to write generated tables to file")
  0x097d0041,  -- }
  0x7d0042,  -- }
  0x0043,
  0x66756e63206e65774c696e65416674657228636f756e745065724c696e6520696e74292066756e63286f757420696f2e57726974657229207b0044,  -- func newLineAfter(countPerLine int) func(out io.Writer) {
  0x09636f756e74203a3d20310045,  -- count := 1
  0x0972657475726e2066756e63286f757420696f2e57726974657229207b0046,  -- return func(out io.Writer) {
  0x0909696620636f756e7425636f756e745065724c696e65203d3d2030207b0047,  -- if count%countPerLine == 0 {
  0x0909095f2c205f203d20666d742e467072696e746c6e286f75742c202222290048,  -- _, _ = fmt.Fprintln(out, "")
  0x09097d20656c7365207b0049,  -- } else {
  0x0909095f2c205f203d20666d742e467072696e7466286f75742c2022202229004a,  -- _, _ = fmt.Fprintf(out, " ")
  0x09097d004b,  -- }
  0x0909636f756e742b2b004c,  -- count++
  0x097d004d,  -- }
  0x7d004e,  -- }
  0x004f,
  0x66756e632067656e5065724e756d4c656e6774685461626c65286f757420696f2e57726974657229206572726f72207b0050,  -- func genPerNumLengthTable(out io.Writer) error {
  0x095f2c205f203d20666d742e467072696e7466286f75742c20225c6e766172205065724e756d4c656e5461626c65202a5b3235365d5b345d75696e7438203d20265b3235365d5b345d75696e74387b5c6e22290051,  -- _, _ = fmt.Fprintf(out, "\nvar PerNumLenTable *[256][4]uint8 = &[256][4]uint8{\n")
  0x09746162626572203a3d206e65774c696e6541667465722834290052,  -- tabber := newLineAfter(4)
  0x09666f722069203a3d20303b2069203c204d6178436f6e74726f6c427974653b20692b2b207b0053,  -- for i := 0; i < MaxControlByte; i++ {
  0x09096f6e652c2074776f2c2074687265652c20666f7572203a3d2073697a65732875696e7438286929290054,  -- one, two, three, four := sizes(uint8(i))
  0x09095f2c20657272203a3d20666d742e467072696e7466286f75742c20225c747b25642c2025642c2025642c2025647d2c222c206f6e652c2074776f2c2074687265652c20666f7572290055,  -- _, err := fmt.Fprintf(out, "\t{%d, %d, %d, %d},", one, two, three, four)
  0x090969662065727220213d206e696c207b0056,  -- if err != nil {
  0x09090972657475726e206572726f72732e5772617066286572722c20226661696c656420746f20777269746520706572206e756d206c656e3a202564222c2069290057,  -- return errors.Wrapf(err, "failed to write per num len: %d", i)
  0x09097d0058,  -- }
  0x0909746162626572286f7574290059,  -- tabber(out)
  0x097d005a,  -- }
  0x095f2c205f203d20666d742e467072696e746c6e286f75742c20227d2229005b,  -- _, _ = fmt.Fprintln(out, "}")
  0x0972657475726e206e696c005c,  -- return nil
  0x7d005d,  -- }
  0x005e,
  0x66756e632067656e506572517561644c656e6774685461626c65286f757420696f2e57726974657229206572726f72207b005f,  -- func genPerQuadLengthTable(out io.Writer) error {
  0x095f2c205f203d20666d742e467072696e7466286f75742c20225c6e76617220506572436f6e74726f6c4c656e5461626c65202a5b3235365d75696e7438203d20265b3235365d75696e74387b5c6e22290060,  -- _, _ = fmt.Fprintf(out, "\nvar PerControlLenTable *[256]uint8 = &[256]uint8{\n")
  0x09746162626572203a3d206e65774c696e6541667465722838290061,  -- tabber := newLineAfter(8)
  0x09666f722069203a3d20303b2069203c204d6178436f6e74726f6c427974653b20692b2b207b0062,  -- for i := 0; i < MaxControlByte; i++ {
  0x09096f6e652c2074776f2c2074687265652c20666f7572203a3d2073697a65732875696e7438286929290063,  -- one, two, three, four := sizes(uint8(i))
  0x09095f2c20657272203a3d20666d742e467072696e7466286f75742c20225c7425642c222c206f6e652b74776f2b74687265652b666f7572290064,  -- _, err := fmt.Fprintf(out, "\t%d,", one+two+three+four)
  0x090969662065727220213d206e696c207b0065,  -- if err != nil {
  0x09090972657475726e206572726f72732e5772617066286572722c20226661696c656420746f2077726974652073756d6d6564206c656e3a202564222c2069290066,  -- return errors.Wrapf(err, "failed to write summed len: %d", i)
  0x09097d0067,  -- }
  0x0909746162626572286f7574290068,  -- tabber(out)
  0x097d0069,  -- }
  0x095f2c205f203d20666d742e467072696e746c6e286f75742c20227d2229006a,  -- _, _ = fmt.Fprintln(out, "}")
  0x0972657475726e206e696c006b,  -- return nil
  0x7d006c,  -- }
  0x006d,
  0x636f6e73742028006e,  -- const (
  0x0973687566666c65466d74537472203d202225233032782c2025233032782c2025233032782c2025233032782c2025233032782c2025233032782c2025233032782c2025233032782c2025233032782c2025233032782c2025233032782c2025233032782c2025233032782c2025233032782c2025233032782c2025233032787d2c22006f,  -- shuffleFmtStr = "%#02x, %#02x, %#02x, %#02x, %#02x, %#02x, %#02x, %#02x, %#02x, %#02x, %#02x, %#02x, %#02x, %#02x, %#02x, %#02x},"
  0x09636f6d6d656e74537472202020203d20225c742f2f2025645c7425233032785c74253038625c746c656e5c7425645c7425645c7425645c7425645c6e220070,  -- commentStr    = "\t// %d\t%#02x\t%08b\tlen\t%d\t%d\t%d\t%d\n"
  0x290071,  -- )
  0x0072,
  0x66756e632067656e456e636f646553687566666c655461626c65286f757420696f2e57726974657229206572726f72207b0073,  -- func genEncodeShuffleTable(out io.Writer) error {
  0x095f2c205f203d20666d742e467072696e7466286f75742c20225c6e76617220456e636f646553687566666c655461626c65202a5b3235365d5b31365d75696e7438203d20265b3235365d5b31365d75696e74387b5c6e22290074,  -- _, _ = fmt.Fprintf(out, "\nvar EncodeShuffleTable *[256][16]uint8 = &[256][16]uint8{\n")
  0x09746162626572203a3d206e65774c696e6541667465722831290075,  -- tabber := newLineAfter(1)
  0x09666f722069203a3d20303b2069203c204d6178436f6e74726f6c427974653b20692b2b207b0076,  -- for i := 0; i < MaxControlByte; i++ {
  0x09096f6e652c2074776f2c2074687265652c20666f7572203a3d2073697a65732875696e7438286929290077,  -- one, two, three, four := sizes(uint8(i))
  0x09095f2c205f203d20666d742e467072696e7466286f75742c20636f6d6d656e745374722c20692c20692c20692c206f6e652c2074776f2c2074687265652c20666f7572290078,  -- _, _ = fmt.Fprintf(out, commentStr, i, i, i, one, two, three, four)
  0x09095f2c20657272203a3d20666d742e467072696e7466286f75742c20225c747b22290079,  -- _, err := fmt.Fprintf(out, "\t{")
  0x090969662065727220213d206e696c207b007a,  -- if err != nil {
  0x09090972657475726e206572726f72732e5772617066286572722c20226661696c656420746f20777269746520656e636f64652073687566666c65207461626c652229007b,  -- return errors.Wrapf(err, "failed to write encode shuffle table")
  0x09097d007c,  -- }
  0x007d,
  0x090976617220706f736974696f6e73205b5d696e746572666163657b7d007e,  -- var positions []interface{}
  0x090976617220626173652075696e7438007f,  -- var base uint8
  0x0909666f72205f2c2073697a65203a3d2072616e6765205b5d75696e74387b6f6e652c2074776f2c2074687265652c20666f75727d207b0080,  -- for _, size := range []uint8{one, two, three, four} {
  0x090909666f72206a203a3d2075696e74382830293b206a203c2073697a653b206a2b2b207b0081,  -- for j := uint8(0); j < size; j++ {
  0x09090909706f736974696f6e73203d20617070656e6428706f736974696f6e732c20626173652b6a290082,  -- positions = append(positions, base+j)
  0x0909097d0083,  -- }
  0x09090962617365202b3d20340084,  -- base += 4
  0x09097d0085,  -- }
  0x0086,
  0x0909666f72206c656e28706f736974696f6e7329203c203136207b0087,  -- for len(positions) < 16 {
  0x090909706f736974696f6e73203d20617070656e6428706f736974696f6e732c2030786666290088,  -- positions = append(positions, 0xff)
  0x09097d0089,  -- }
  0x09095f2c20657272203d20666d742e467072696e7466286f75742c2073687566666c65466d745374722c20706f736974696f6e732e2e2e29008a,  -- _, err = fmt.Fprintf(out, shuffleFmtStr, positions...)
  0x090969662065727220213d206e696c207b008b,  -- if err != nil {
  0x09090972657475726e206572726f72732e5772617066286572722c20226661696c656420746f20777269746520706572206e756d206c656e3a202564222c206929008c,  -- return errors.Wrapf(err, "failed to write per num len: %d", i)
  0x09097d008d,  -- }
  0x0909746162626572286f757429008e,  -- tabber(out)
  0x097d008f,  -- }
  0x095f2c205f203d20666d742e467072696e746c6e286f75742c20227d22290090,  -- _, _ = fmt.Fprintln(out, "}")
  0x0972657475726e206e696c0091,  -- return nil
  0x7d0092,  -- }
  0x0093,
  0x66756e632067656e4465636f646553687566666c655461626c65286f757420696f2e57726974657229206572726f72207b0094,  -- func genDecodeShuffleTable(out io.Writer) error {
  0x095f2c205f203d20666d742e467072696e7466286f75742c20225c6e766172204465636f646553687566666c655461626c65202a5b3235365d5b31365d75696e7438203d20265b3235365d5b31365d75696e74387b5c6e22290095,  -- _, _ = fmt.Fprintf(out, "\nvar DecodeShuffleTable *[256][16]uint8 = &[256][16]uint8{\n")
  0x09746162626572203a3d206e65774c696e6541667465722831290096,  -- tabber := newLineAfter(1)
  0x09666f722069203a3d20303b2069203c204d6178436f6e74726f6c427974653b20692b2b207b0097,  -- for i := 0; i < MaxControlByte; i++ {
  0x09096f6e652c2074776f2c2074687265652c20666f7572203a3d2073697a65732875696e7438286929290098,  -- one, two, three, four := sizes(uint8(i))
  0x09095f2c205f203d20666d742e467072696e7466286f75742c20636f6d6d656e745374722c20692c20692c20692c206f6e652c2074776f2c2074687265652c20666f7572290099,  -- _, _ = fmt.Fprintf(out, commentStr, i, i, i, one, two, three, four)
  0x09095f2c20657272203a3d20666d742e467072696e7466286f75742c20225c747b2229009a,  -- _, err := fmt.Fprintf(out, "\t{")
  0x090969662065727220213d206e696c207b009b,  -- if err != nil {
  0x09090972657475726e206572726f72732e5772617066286572722c20226661696c656420746f20777269746520656e636f64652073687566666c65207461626c652229009c,  -- return errors.Wrapf(err, "failed to write encode shuffle table")
  0x09097d009d,  -- }
  0x009e,
  0x090976617220706f736974696f6e73205b5d696e746572666163657b7d009f,  -- var positions []interface{}
  0x090976617220706f732075696e743800a0,  -- var pos uint8
  0x0909666f72205f2c2073697a65203a3d2072616e6765205b5d75696e74387b6f6e652c2074776f2c2074687265652c20666f75727d207b00a1,  -- for _, size := range []uint8{one, two, three, four} {
  0x090909666f72206a203a3d20303b206a203c20343b206a2b2b207b00a2,  -- for j := 0; j < 4; j++ {
  0x0909090969662073697a65203e2030207b00a3,  -- if size > 0 {
  0x0909090909706f736974696f6e73203d20617070656e6428706f736974696f6e732c20706f732900a4,  -- positions = append(positions, pos)
  0x0909090909706f732b2b00a5,  -- pos++
  0x090909090973697a652d2d00a6,  -- size--
  0x090909097d20656c7365207b00a7,  -- } else {
  0x0909090909706f736974696f6e73203d20617070656e6428706f736974696f6e732c20307866662900a8,  -- positions = append(positions, 0xff)
  0x090909097d00a9,  -- }
  0x0909097d00aa,  -- }
  0x09097d00ab,  -- }
  0x00ac,
  0x09095f2c20657272203d20666d742e467072696e7466286f75742c2073687566666c65466d745374722c20706f736974696f6e732e2e2e2900ad,  -- _, err = fmt.Fprintf(out, shuffleFmtStr, positions...)
  0x090969662065727220213d206e696c207b00ae,  -- if err != nil {
  0x09090972657475726e206572726f72732e5772617066286572722c20226661696c656420746f20777269746520706572206e756d206c656e3a202564222c20692900af,  -- return errors.Wrapf(err, "failed to write per num len: %d", i)
  0x09097d00b0,  -- }
  0x0909746162626572286f75742900b1,  -- tabber(out)
  0x097d00b2,  -- }
  0x095f2c205f203d20666d742e467072696e746c6e286f75742c20227d222900b3,  -- _, _ = fmt.Fprintln(out, "}")
  0x0972657475726e206e696c00b4,  -- return nil
  0x7d00b5,  -- }
  0x00b6,
  0x2f2f2073697a65732072657475726e7320746865206c656e67746820696e20627974657320666f722065616368206f662074686520666f7572206e756d6265727300b7,
  0x2f2f20726570726573656e746564206279207468652070726f766964656420636f6e74726f6c20627974652e00b8,
  0x66756e632073697a657328636f6e74726f6c2075696e74382920286f6e652075696e74382c2074776f2075696e74382c2074687265652075696e74382c20666f75722075696e743829207b00b9,  -- func sizes(control uint8) (one uint8, two uint8, three uint8, four uint8) {
  0x096f6e65203d2028636f6e74726f6c2026203329202b203100ba,  -- one = (control & 3) + 1
  0x0974776f203d2028636f6e74726f6c203e3e20322026203329202b203100bb,  -- two = (control >> 2 & 3) + 1
  0x097468726565203d2028636f6e74726f6c203e3e20342026203329202b203100bc,  -- three = (control >> 4 & 3) + 1
  0x09666f7572203d2028636f6e74726f6c203e3e20362026203329202b203100bd,  -- four = (control >> 6 & 3) + 1
  0x0972657475726e00be,  -- return
  0x7d00bf]  -- }

/-- `/repo/pkg/shared/asm.go`. -/
def sharedAsmGo : List Nat := [
  0x7061636b616765207368617265640001,  -- package shared
  0x0002,
  0x696d706f727420280003,  -- import (
  0x092e20226769746875622e636f6d2f6d6d636c6f7567686c696e2f61766f2f6275696c64220004,  -- . "github.com/mmcloughlin/avo/build"
  0x09226769746875622e636f6d2f6d6d636c6f7567686c696e2f61766f2f6f706572616e64220005,  -- "github.com/mmcloughlin/avo/operand"
  0x09226769746875622e636f6d2f6d6d636c6f7567686c696e2f61766f2f726567220006,  -- "github.com/mmcloughlin/avo/reg"
  0x290007,  -- )
  0x0008,
  0x66756e632043616c63756c61746553687566666c654164647246726f6d4374726c2873687566666c6542617365207265672e52656769737465722c206374726c207265672e47505669727475616c2c20757070657220626f6f6c29206f706572616e642e4d656d207b0009,  -- func CalculateShuffleAddrFromCtrl(shuffleBase reg.Register, ctrl reg.GPVirtual, upper bool) operand.Mem {
  0x0961646472203a3d20475036342829000a,  -- addr := GP64()
  0x096966207570706572207b000b,  -- if upper {
  0x09094d4f5657515a58286374726c2e4173313628292c206164647229000c,  -- MOVWQZX(ctrl.As16(), addr)
  0x090953485251286f706572616e642e496d6d2838292c206164647229000d,  -- SHRQ(operand.Imm(8), addr)
  0x097d20656c7365207b000e,  -- } else {
  0x09094d4f5642515a58286374726c2e41733828292c206164647229000f,  -- MOVBQZX(ctrl.As8(), addr)
  0x097d0010,  -- }
  0x0011,
  0x092f2f204c656674207368696674206279203420746f20676574207468652062797465206c6576656c206f666673657420666f72207468652073687566666c65207461626c650012,
  0x0953484c51286f706572616e642e496d6d2834292c2061646472290013,  -- SHLQ(operand.Imm(4), addr)
  0x09414444512873687566666c65426173652c2061646472290014,  -- ADDQ(shuffleBase, addr)
  0x0015,
  0x0972657475726e206f706572616e642e4d656d7b426173653a20616464727d0016,  -- return operand.Mem{Base: addr}
  0x7d0017,  -- }
  0x0018,
  0x66756e63204c656e56616c756541646472286374726c207265672e47505669727475616c2c20757070657220626f6f6c2c206c656e5461626c65506172616d20737472696e672920286f706572616e642e4d656d2c207265672e47505669727475616c29207b0019,  -- func LenValueAddr(ctrl reg.GPVirtual, upper bool, lenTableParam string) (operand.Mem, reg.GPVirtual) {
  0x096c656e5461626c6542617365203a3d204c6f616428506172616d286c656e5461626c65506172616d292c2047503634282929001a,  -- lenTableBase := Load(Param(lenTableParam), GP64())
  0x096c656e56616c756541646472203a3d20475036342829001b,  -- lenValueAddr := GP64()
  0x096966207570706572207b001c,  -- if upper {
  0x09094d4f5657515a58286374726c2e4173313628292c206c656e56616c75654164647229001d,  -- MOVWQZX(ctrl.As16(), lenValueAddr)
  0x090953485251286f706572616e642e496d6d2838292c206c656e56616c75654164647229001e,  -- SHRQ(operand.Imm(8), lenValueAddr)
  0x097d20656c7365207b001f,  -- } else {
  0x09094d4f5642515a58286374726c2e4173384c28292c206c656e56616c756541646472290020,  -- MOVBQZX(ctrl.As8L(), lenValueAddr)
  0x097d0021,  -- }
  0x0941444451286c656e5461626c65426173652c206c656e56616c756541646472290022,  -- ADDQ(lenTableBase, lenValueAddr)
  0x0023,
  0x0972657475726e206f706572616e642e4d656d7b426173653a206c656e56616c7565416464727d2c206c656e56616c7565416464720024,  -- return operand.Mem{Base: lenValueAddr}, lenValueAddr
  0x7d0025,  -- }
  0x0026,
  0x66756e63204c6f61643828706172616d4e616d6520737472696e672920287265672e5665635669727475616c2c207265672e5665635669727475616c29207b0027,  -- func Load8(paramName string) (reg.VecVirtual, reg.VecVirtual) {
  0x0961727242617365203a3d206f706572616e642e4d656d7b0028,  -- arrBase := operand.Mem{
  0x0909426173653a204c6f616428506172616d28706172616d4e616d65292e4261736528292c20475036342829292c0029,  -- Base: Load(Param(paramName).Base(), GP64()),
  0x097d002a,  -- }
  0x096669727374466f7572203a3d20584d4d2829002b,  -- firstFour := XMM()
  0x097365636f6e64466f7572203a3d20584d4d2829002c,  -- secondFour := XMM()
  0x09564c4444515528617272426173652c206669727374466f757229002d,  -- VLDDQU(arrBase, firstFour)
  0x09564c4444515528617272426173652e4f6666736574283136292c207365636f6e64466f757229002e,  -- VLDDQU(arrBase.Offset(16), secondFour)
  0x002f,
  0x0972657475726e206669727374466f75722c207365636f6e64466f75720030,  -- return firstFour, secondFour
  0x7d0031]  -- }

/-- `/repo/pkg/encode/main/asm.go`. -/
def encodeAsmGo : List Nat := [
  0x7061636b616765206d61696e0001,  -- package main
  0x0002,
  0x696d706f727420280003,  -- import (
  0x0922666d74220004,  -- "fmt"
  0x09226c6f67220005,  -- "log"
  0x0006,
  0x092e20226769746875622e636f6d2f6d6d636c6f7567686c696e2f61766f2f6275696c64220007,  -- . "github.com/mmcloughlin/avo/build"
  0x09226769746875622e636f6d2f6d6d636c6f7567686c696e2f61766f2f6f706572616e64220008,  -- "github.com/mmcloughlin/avo/operand"
  0x09226769746875622e636f6d2f6d6d636c6f7567686c696e2f61766f2f726567220009,  -- "github.com/mmcloughlin/avo/reg"
  0x09226769746875622e636f6d2f7468654d506174656c2f73747265616d76627974652d73696d64676f2f706b672f73686172656422000a,  -- "github.com/theMPatel/streamvbyte-simdgo/pkg/shared"
  0x29000b,  -- )
  0x000c,
  0x636f6e73742028000d,  -- const (
  0x096e616d652020202020203d20225075743875696e7433324661737441736d22000e,  -- name      = "Put8uint32FastAsm"
  0x096e616d6544656c7461203d20225075743875696e74333244656c74614661737441736d22000f,  -- nameDelta = "Put8uint32DeltaFastAsm"
  0x0970496e202020202020203d2022696e220010,  -- pIn       = "in"
  0x09704f75742020202020203d20226f75744279746573220011,  -- pOut      = "outBytes"
  0x097053687566666c6520203d202273687566666c65220012,  -- pShuffle  = "shuffle"
  0x09704c656e5461626c65203d20226c656e5461626c65220013,  -- pLenTable = "lenTable"
  0x09705072657620202020203d202270726576220014,  -- pPrev     = "prev"
  0x09705220202020202020203d202272220015,  -- pR        = "r"
  0x290016,  -- )
  0x0017,
  0x76617220280018,  -- var (
  0x097369676e6174757265203d20666d742e537072696e7466280019,  -- signature = fmt.Sprintf(
  0x09092266756e63282573205b5d75696e7433322c202573205b5d627974652c202573202a5b3235365d5b31365d75696e74382c202573202a5b3235365d75696e743829202825732075696e74313629222c001a,  -- "func(%s []uint32, %s []byte, %s *[256][16]uint8, %s *[256]uint8) (%s uint16)",
  0x090970496e2c20704f75742c207053687566666c652c20704c656e5461626c652c20705229001b,  -- pIn, pOut, pShuffle, pLenTable, pR)
  0x001c,
  0x097369676e617475726544656c7461203d20666d742e537072696e746628001d,  -- signatureDelta = fmt.Sprintf(
  0x09092266756e63282573205b5d75696e7433322c202573205b5d627974652c2025732075696e7433322c202573202a5b3235365d5b31365d75696e74382c202573202a5b3235365d75696e743829202825732075696e74313629222c001e,  -- "func(%s []uint32, %s []byte, %s uint32, %s *[256][16]uint8, %s *[256]uint8) (%s uint16)",
  0x090970496e2c20704f75742c2070507265762c207053687566666c652c20704c656e5461626c652c20705229001f,  -- pIn, pOut, pPrev, pShuffle, pLenTable, pR)
  0x0020,
  0x096d61736b3131313152203d20436f6e73744461746128226d61736b30313031222c206f706572616e642e5531362830783031303129290021,  -- mask1111R = ConstData("mask0101", operand.U16(0x0101))
  0x096d61736b3746303052203d20436f6e73744461746128226d61736b37463030222c206f706572616e642e5531362830783746303029290022,  -- mask7F00R = ConstData("mask7F00", operand.U16(0x7F00))
  0x290023,  -- )
  0x0024,
  0x66756e63206d61696e2829207b0025,  -- func main() {
  0x09726567756c617228290026,  -- regular()
  0x09646966666572656e7469616c28290027,  -- differential()
  0x0947656e657261746528290028,  -- Generate()
  0x7d0029,  -- }
  0x002a,
  0x66756e6320646966666572656e7469616c2829207b002b,  -- func differential() {
  0x0954455854286e616d6544656c74612c204e4f53504c49542c207369676e617475726544656c746129002c,  -- TEXT(nameDelta, NOSPLIT, signatureDelta)
  0x002d,
  0x097072657653696e67756c61722c20657272203a3d20506172616d287050726576292e5265736f6c76652829002e,  -- prevSingular, err := Param(pPrev).Resolve()
  0x0969662065727220213d206e696c207b002f,  -- if err != nil {
  0x09096c6f672e466174616c6628226661696c656420746f206765742061646472206f66207072657622290030,  -- log.Fatalf("failed to get addr of prev")
  0x097d0031,  -- }
  0x0032,
  0x096669727374466f75722c207365636f6e64466f7572203a3d207368617265642e4c6f6164382870496e290033,  -- firstFour, secondFour := shared.Load8(pIn)
  0x0970726576203a3d20584d4d28290034,  -- prev := XMM()
  0x095650414c49474e52286f706572616e642e496d6d283132292c206669727374466f75722c207365636f6e64466f75722c2070726576290035,  -- VPALIGNR(operand.Imm(12), firstFour, secondFour, prev)
  0x0956505355424428707265762c207365636f6e64466f75722c207365636f6e64466f7572290036,  -- VPSUBD(prev, secondFour, secondFour)
  0x0037,
  0x095642524f4144434153545353287072657653696e67756c61722e416464722c2070726576290038,  -- VBROADCASTSS(prevSingular.Addr, prev)
  0x095650414c49474e52286f706572616e642e496d6d283132292c20707265762c206669727374466f75722c2070726576290039,  -- VPALIGNR(operand.Imm(12), prev, firstFour, prev)
  0x0956505355424428707265762c206669727374466f75722c206669727374466f757229003a,  -- VPSUBD(prev, firstFour, firstFour)
  0x003b,
  0x09636f7265416c676f726974686d286669727374466f75722c207365636f6e64466f757229003c,  -- coreAlgorithm(firstFour, secondFour)
  0x7d003d,  -- }
  0x003e,
  0x66756e6320726567756c61722829207b003f,  -- func regular() {
  0x0954455854286e616d652c204e4f53504c49542c207369676e6174757265290040,  -- TEXT(name, NOSPLIT, signature)
  0x09636f7265416c676f726974686d287368617265642e4c6f6164382870496e29290041,  -- coreAlgorithm(shared.Load8(pIn))
  0x7d0042,  -- }
  0x0043,
  0x66756e6320636f7265416c676f726974686d286669727374466f75722c207365636f6e64466f7572207265672e5665635669727475616c29207b0044,  -- func coreAlgorithm(firstFour, secondFour reg.VecVirtual) {
  0x096f6e65734d61736b203a3d20584d4d28290045,  -- onesMask := XMM()
  0x09736576656e467a65726f7a65726f203a3d20584d4d28290046,  -- sevenFzerozero := XMM()
  0x09565042524f41444341535457286d61736b31313131522c206f6e65734d61736b290047,  -- VPBROADCASTW(mask1111R, onesMask)
  0x09565042524f41444341535457286d61736b37463030522c20736576656e467a65726f7a65726f290048,  -- VPBROADCASTW(mask7F00R, sevenFzerozero)
  0x0049,
  0x096d696e4669727374466f7572203a3d20584d4d2829004a,  -- minFirstFour := XMM()
  0x096d696e5365636f6e64466f7572203a3d20584d4d2829004b,  -- minSecondFour := XMM()
  0x0956504d494e5542286f6e65734d61736b2c206669727374466f75722c206d696e4669727374466f757229004c,  -- VPMINUB(onesMask, firstFour, minFirstFour)
  0x0956504d494e5542286f6e65734d61736b2c207365636f6e64466f75722c206d696e5365636f6e64466f757229004d,  -- VPMINUB(onesMask, secondFour, minSecondFour)
  0x004e,
  0x092f2f2052652d757365206d696e4669727374466f7572207265676973746572004f,
  0x09565041434b55535742286d696e5365636f6e64466f75722c206d696e4669727374466f75722c206d696e4669727374466f7572290050,  -- VPACKUSWB(minSecondFour, minFirstFour, minFirstFour)
  0x0956504d494e5357286f6e65734d61736b2c206d696e4669727374466f75722c206d696e4669727374466f7572290051,  -- VPMINSW(onesMask, minFirstFour, minFirstFour)
  0x09565041444455535728736576656e467a65726f7a65726f2c206d696e4669727374466f75722c206d696e4669727374466f7572290052,  -- VPADDUSW(sevenFzerozero, minFirstFour, minFirstFour)
  0x0053,
  0x096374726c203a3d204750333228290054,  -- ctrl := GP32()
  0x0956504d4f564d534b42286d696e4669727374466f75722c206374726c290055,  -- VPMOVMSKB(minFirstFour, ctrl)
  0x0953746f7265286374726c2e4173313628292c2052657475726e28705229290056,  -- Store(ctrl.As16(), Return(pR))
  0x0057,
  0x0973687566666c6542617365203a3d204c6f616428506172616d287053687566666c65292c20475036342829290058,  -- shuffleBase := Load(Param(pShuffle), GP64())
  0x09666972737453687566666c65203a3d207368617265642e43616c63756c61746553687566666c654164647246726f6d4374726c2873687566666c65426173652c206374726c2c2066616c7365290059,  -- firstShuffle := shared.CalculateShuffleAddrFromCtrl(shuffleBase, ctrl, false)
  0x097365636f6e6453687566666c65203a3d207368617265642e43616c63756c61746553687566666c654164647246726f6d4374726c2873687566666c65426173652c206374726c2c207472756529005a,  -- secondShuffle := shared.CalculateShuffleAddrFromCtrl(shuffleBase, ctrl, true)
  0x005b,
  0x095650534855464228666972737453687566666c652c206669727374466f75722c206669727374466f757229005c,  -- VPSHUFB(firstShuffle, firstFour, firstFour)
  0x0956505348554642287365636f6e6453687566666c652c207365636f6e64466f75722c207365636f6e64466f757229005d,  -- VPSHUFB(secondShuffle, secondFour, secondFour)
  0x005e,
  0x09666972737441646472203a3d204c6f616428506172616d28704f7574292e4261736528292c2047503634282929005f,  -- firstAddr := Load(Param(pOut).Base(), GP64())
  0x097365636f6e6441646472203a3d204750363428290060,  -- secondAddr := GP64()
  0x094d4f5651286669727374416464722c207365636f6e6441646472290061,  -- MOVQ(firstAddr, secondAddr)
  0x0062,
  0x096c656e416464722c206c656e56616c7565203a3d207368617265642e4c656e56616c756541646472286374726c2c2066616c73652c20704c656e5461626c65290063,  -- lenAddr, lenValue := shared.LenValueAddr(ctrl, false, pLenTable)
  0x0064,
  0x094d4f5642515a58286c656e416464722c206c656e56616c7565290065,  -- MOVBQZX(lenAddr, lenValue)
  0x0941444451286c656e56616c75652c207365636f6e6441646472290066,  -- ADDQ(lenValue, secondAddr)
  0x0067,
  0x09564d4f56445155286669727374466f75722c206f706572616e642e4d656d7b426173653a206669727374416464727d290068,  -- VMOVDQU(firstFour, operand.Mem{Base: firstAddr})
  0x09564d4f56445155287365636f6e64466f75722c206f706572616e642e4d656d7b426173653a207365636f6e64416464727d290069,  -- VMOVDQU(secondFour, operand.Mem{Base: secondAddr})
  0x006a,
  0x095245542829006b,  -- RET()
  0x7d006c]  -- }

/-- `/repo/pkg/decode/main/asm.go`. -/
def decodeAsmGo : List Nat := [
  0x7061636b616765206d61696e0001,  -- package main
  0x0002,
  0x696d706f727420280003,  -- import (
  0x0922666d74220004,  -- "fmt"
  0x09226c6f67220005,  -- "log"
  0x0006,
  0x092e20226769746875622e636f6d2f6d6d636c6f7567686c696e2f61766f2f6275696c64220007,  -- . "github.com/mmcloughlin/avo/build"
  0x09226769746875622e636f6d2f6d6d636c6f7567686c696e2f61766f2f6f706572616e64220008,  -- "github.com/mmcloughlin/avo/operand"
  0x09226769746875622e636f6d2f6d6d636c6f7567686c696e2f61766f2f726567220009,  -- "github.com/mmcloughlin/avo/reg"
  0x09226769746875622e636f6d2f7468654d506174656c2f73747265616d76627974652d73696d64676f2f706b672f73686172656422000a,  -- "github.com/theMPatel/streamvbyte-simdgo/pkg/shared"
  0x29000b,  -- )
  0x000c,
  0x636f6e73742028000d,  -- const (
  0x096e616d652020202020203d20224765743875696e7433324661737441736d22000e,  -- name      = "Get8uint32FastAsm"
  0x096e616d6544656c7461203d20224765743875696e74333244656c74614661737441736d22000f,  -- nameDelta = "Get8uint32DeltaFastAsm"
  0x0010,
  0x0970496e202020202020203d2022696e220011,  -- pIn       = "in"
  0x09704f75742020202020203d20226f7574220012,  -- pOut      = "out"
  0x09704374726c20202020203d20226374726c220013,  -- pCtrl     = "ctrl"
  0x097053687566666c6520203d202273687566666c65220014,  -- pShuffle  = "shuffle"
  0x09704c656e5461626c65203d20226c656e5461626c65220015,  -- pLenTable = "lenTable"
  0x09705072657620202020203d202270726576220016,  -- pPrev     = "prev"
  0x290017,  -- )
  0x0018,
  0x76617220280019,  -- var (
  0x097369676e6174757265203d20666d742e537072696e746628001a,  -- signature = fmt.Sprintf(
  0x09092266756e63282573205b5d627974652c202573205b5d75696e7433322c2025732075696e7431362c202573202a5b3235365d5b31365d75696e74382c202573202a5b3235365d75696e743829222c001b,  -- "func(%s []byte, %s []uint32, %s uint16, %s *[256][16]uint8, %s *[256]uint8)",
  0x090970496e2c20704f75742c20704374726c2c207053687566666c652c20704c656e5461626c6529001c,  -- pIn, pOut, pCtrl, pShuffle, pLenTable)
  0x001d,
  0x097369676e617475726544656c7461203d20666d742e537072696e746628001e,  -- signatureDelta = fmt.Sprintf(
  0x09092266756e63282573205b5d627974652c202573205b5d75696e7433322c2025732075696e7431362c2025732075696e7433322c202573202a5b3235365d5b31365d75696e74382c202573202a5b3235365d75696e743829222c001f,  -- "func(%s []byte, %s []uint32, %s uint16, %s uint32, %s *[256][16]uint8, %s *[256]uint8)",
  0x090970496e2c20704f75742c20704374726c2c2070507265762c207053687566666c652c20704c656e5461626c65290020,  -- pIn, pOut, pCtrl, pPrev, pShuffle, pLenTable)
  0x290021,  -- )
  0x0022,
  0x66756e63206d61696e2829207b0023,  -- func main() {
  0x09726567756c617228290024,  -- regular()
  0x09646966666572656e7469616c28290025,  -- differential()
  0x0947656e657261746528290026,  -- Generate()
  0x7d0027,  -- }
  0x0028,
  0x66756e6320726567756c61722829207b0029,  -- func regular() {
  0x0954455854286e616d652c204e4f53504c49542c207369676e617475726529002a,  -- TEXT(name, NOSPLIT, signature)
  0x002b,
  0x096669727374466f75722c207365636f6e64466f7572203a3d20636f7265416c676f726974686d2829002c,  -- firstFour, secondFour := coreAlgorithm()
  0x096f757442617365203a3d206f706572616e642e4d656d7b426173653a204c6f616428506172616d28704f7574292e4261736528292c20475036342829297d002d,  -- outBase := operand.Mem{Base: Load(Param(pOut).Base(), GP64())}
  0x002e,
  0x09564d4f56445155286669727374466f75722c206f75744261736529002f,  -- VMOVDQU(firstFour, outBase)
  0x09564d4f56445155287365636f6e64466f75722c206f7574426173652e4f666673657428313629290030,  -- VMOVDQU(secondFour, outBase.Offset(16))
  0x0031,
  0x0952455428290032,  -- RET()
  0x7d0033,  -- }
  0x0034,
  0x66756e6320646966666572656e7469616c2829207b0035,  -- func differential() {
  0x0954455854286e616d6544656c74612c204e4f53504c49542c207369676e617475726544656c7461290036,  -- TEXT(nameDelta, NOSPLIT, signatureDelta)
  0x0037,
  0x096669727374466f75722c207365636f6e64466f7572203a3d20636f7265416c676f726974686d2829202f2f205b412042204320445d205b452046204720485d0038,  -- firstFour, secondFour := coreAlgorithm() // [A B C D] [E F G H]
  0x097072657653696e67756c61722c20657272203a3d20506172616d287050726576292e5265736f6c766528290039,  -- prevSingular, err := Param(pPrev).Resolve()
  0x0969662065727220213d206e696c207b003a,  -- if err != nil {
  0x09096c6f672e466174616c6628226661696c656420746f206765742061646472206f6620707265762229003b,  -- log.Fatalf("failed to get addr of prev")
  0x097d003c,  -- }
  0x003d,
  0x0970726576203a3d20584d4d2829003e,  -- prev := XMM()
  0x095642524f4144434153545353287072657653696e67756c61722e416464722c207072657629202f2f205b502050205020505d003f,  -- VBROADCASTSS(prevSingular.Addr, prev) // [P P P P]
  0x09756e646f44656c7461286669727374466f75722c2070726576290040,  -- undoDelta(firstFour, prev)
  0x0041,
  0x0956505348554644286f706572616e642e496d6d2830786666292c206669727374466f75722c207072657629202f2f205b412042204320445d202d3e205b442044204420445d0042,  -- VPSHUFD(operand.Imm(0xff), firstFour, prev) // [A B C D] -> [D D D D]
  0x09756e646f44656c7461287365636f6e64466f75722c2070726576290043,  -- undoDelta(secondFour, prev)
  0x0044,
  0x096f757442617365203a3d206f706572616e642e4d656d7b426173653a204c6f616428506172616d28704f7574292e4261736528292c20475036342829297d0045,  -- outBase := operand.Mem{Base: Load(Param(pOut).Base(), GP64())}
  0x0046,
  0x09564d4f56445155286669727374466f75722c206f757442617365290047,  -- VMOVDQU(firstFour, outBase)
  0x09564d4f56445155287365636f6e64466f75722c206f7574426173652e4f666673657428313629290048,  -- VMOVDQU(secondFour, outBase.Offset(16))
  0x0049,
  0x095245542829004a,  -- RET()
  0x7d004b,  -- }
  0x004c,
  0x66756e6320756e646f44656c746128666f75722c2070726576207265672e5665635669727475616c29207b004d,  -- func undoDelta(four, prev reg.VecVirtual) {
  0x096164646572203a3d20584d4d282920202020202020202020202020202020202020202020202f2f205b412042204320445d004e,  -- adder := XMM()                       // [A B C D]
  0x095650534c4c4451286f706572616e642e496d6d2834292c20666f75722c20616464657229202f2f205b2d20412020422020435d004f,  -- VPSLLDQ(operand.Imm(4), four, adder) // [- A  B  C]
  0x0956504144444428666f75722c2061646465722c20666f7572292020202020202020202020202f2f205b412041422042432043445d0050,  -- VPADDD(four, adder, four)            // [A AB BC CD]
  0x095650534c4c4451286f706572616e642e496d6d2838292c20666f75722c20616464657229202f2f205b2d202d20412041425d0051,  -- VPSLLDQ(operand.Imm(8), four, adder) // [- - A AB]
  0x0956504144444428666f75722c20707265762c20666f757229202020202020202020202020202f2f205b50412050414220504243205043445d0052,  -- VPADDD(four, prev, four)             // [PA PAB PBC PCD]
  0x0956504144444428666f75722c2061646465722c20666f7572292020202020202020202020202f2f205b50412050414220504142432050414243445d0053,  -- VPADDD(four, adder, four)            // [PA PAB PABC PABCD]
  0x7d0054,  -- }
  0x0055,
  0x66756e6320636f7265416c676f726974686d282920287265672e5665635669727475616c2c207265672e5665635669727475616c29207b0056,  -- func coreAlgorithm() (reg.VecVirtual, reg.VecVirtual) {
  0x096374726c203a3d204750363428290057,  -- ctrl := GP64()
  0x094c6f616428506172616d28704374726c292c206374726c290058,  -- Load(Param(pCtrl), ctrl)
  0x0059,
  0x0973687566666c6542617365203a3d204c6f616428506172616d287053687566666c65292c2047503634282929005a,  -- shuffleBase := Load(Param(pShuffle), GP64())
  0x0973687566666c6541203a3d207368617265642e43616c63756c61746553687566666c654164647246726f6d4374726c2873687566666c65426173652c206374726c2c2066616c736529005b,  -- shuffleA := shared.CalculateShuffleAddrFromCtrl(shuffleBase, ctrl, false)
  0x0973687566666c6542203a3d207368617265642e43616c63756c61746553687566666c654164647246726f6d4374726c2873687566666c65426173652c206374726c2c207472756529005c,  -- shuffleB := shared.CalculateShuffleAddrFromCtrl(shuffleBase, ctrl, true)
  0x005d,
  0x096669727374426c6f636b203a3d204c6f616428506172616d2870496e292e4261736528292c2047503634282929005e,  -- firstBlock := Load(Param(pIn).Base(), GP64())
  0x097365636f6e64426c6f636b203a3d20475036342829005f,  -- secondBlock := GP64()
  0x094d4f5651286669727374426c6f636b2c207365636f6e64426c6f636b290060,  -- MOVQ(firstBlock, secondBlock)
  0x096c6f776572416464722c206c6f77657253697a65203a3d207368617265642e4c656e56616c756541646472286374726c2c2066616c73652c20704c656e5461626c65290061,  -- lowerAddr, lowerSize := shared.LenValueAddr(ctrl, false, pLenTable)
  0x0062,
  0x094d4f5642515a58286c6f776572416464722c206c6f77657253697a65290063,  -- MOVBQZX(lowerAddr, lowerSize)
  0x0941444451286c6f77657253697a652c207365636f6e64426c6f636b290064,  -- ADDQ(lowerSize, secondBlock)
  0x0065,
  0x096669727374466f7572203a3d20584d4d28290066,  -- firstFour := XMM()
  0x097365636f6e64466f7572203a3d20584d4d28290067,  -- secondFour := XMM()
  0x09564c44445155286f706572616e642e4d656d7b426173653a206669727374426c6f636b7d2c206669727374466f7572290068,  -- VLDDQU(operand.Mem{Base: firstBlock}, firstFour)
  0x09564c44445155286f706572616e642e4d656d7b426173653a207365636f6e64426c6f636b7d2c207365636f6e64466f7572290069,  -- VLDDQU(operand.Mem{Base: secondBlock}, secondFour)
  0x006a,
  0x09565053485546422873687566666c65412c206669727374466f75722c206669727374466f757229006b,  -- VPSHUFB(shuffleA, firstFour, firstFour)
  0x09565053485546422873687566666c65422c207365636f6e64466f75722c207365636f6e64466f757229006c,  -- VPSHUFB(shuffleB, secondFour, secondFour)
  0x006d,
  0x0972657475726e206669727374466f75722c207365636f6e64466f7572006e,  -- return firstFour, secondFour
  0x7d006f]  -- }

/-- `/repo/pkg/encode/gen.go`. -/
def encodeGenGo : List Nat := [
  0x7061636b61676520656e636f64650001,  -- package encode
  0x0002,
  0x2f2f676f3a67656e657261746520676f2072756e202e2f6d61696e2f61736d2e676f202d6f7574202e2f656e636f64655f616d6436342e730003]

/-- `/repo/pkg/decode/gen.go`. -/
def decodeGenGo : List Nat := [
  0x7061636b616765206465636f64650001,  -- package decode
  0x0002,
  0x2f2f676f3a67656e657261746520676f2072756e202e2f6d61696e2f61736d2e676f202d6f7574202e2f6465636f64655f616d6436342e730003]

/-- `/repo/pkg/util/rand.go`. -/
def randGo : List Nat := [
  0x7061636b616765207574696c0001,  -- package util
  0x0002,
  0x2f2f20546869732066696c652070726f76696465732061206d6f726520756e69666f726d2072616e646f6d206e756d6265722067656e657261746f72207468617420637265617465730003,
  0x2f2f206e756d62657273207468617420686176652061206d6f7265206e6f726d616c20646973747269627574696f6e20616c6f6e6720746865206e756d626572206f662062797465730004,
  0x2f2f20726571756972656420746f20656e636f6465207468656d2e2054686973206973206e6565646564206265636175736520746865206c617267657220656e636f6465642062797465730005,
  0x2f2f20692e652e203320616e6420342062797465732068617665206d6f7265206e756d6265727320746f207069636b2066726f6d207665727375732074686f7365207468617420726571756972650006,
  0x2f2f206a7573742031206f7220322e20546875732c207573696e672061206e6f726d616c6c792067656e657261746564206e756d626572206973206d6f7265206c696b656c7920746f2070726f647563650007,
  0x2f2f2061206e756d62657220746861742072657175697265732033206f72203420627974657320746f20656e636f64652e0008,
  0x0009,
  0x696d706f72742028000a,  -- import (
  0x09226d61746822000b,  -- "math"
  0x09226d6174682f72616e6422000c,  -- "math/rand"
  0x29000d,  -- )
  0x000e,
  0x747970652067656e657261746f722066756e6328292075696e743332000f,  -- type generator func() uint32
  0x0010,
  0x66756e632072616e6455696e74333252616e6765286c6f772c20686967682075696e743332292075696e743332207b0011,  -- func randUint32Range(low, high uint32) uint32 {
  0x0972657475726e202872616e642e55696e74333228292025202868696768202d206c6f77202b20312929202b206c6f770012,  -- return (rand.Uint32() % (high - low + 1)) + low
  0x7d0013,  -- }
  0x0014,
  0x76617220280015,  -- var (
  0x0967656e657261746f7273203d205b5d67656e657261746f727b0016,  -- generators = []generator{
  0x09092f2f203120627974652c0017,
  0x090966756e6328292075696e743332207b0018,  -- func() uint32 {
  0x09090972657475726e2072616e6455696e74333252616e676528302c20313c3c38290019,  -- return randUint32Range(0, 1<<8)
  0x09097d2c001a,  -- },
  0x09092f2f203220627974652c001b,
  0x090966756e6328292075696e743332207b001c,  -- func() uint32 {
  0x09090972657475726e2072616e6455696e74333252616e676528313c3c382c20313c3c313629001d,  -- return randUint32Range(1<<8, 1<<16)
  0x09097d2c001e,  -- },
  0x09092f2f203320627974652c001f,
  0x090966756e6328292075696e743332207b0020,  -- func() uint32 {
  0x09090972657475726e2072616e6455696e74333252616e676528313c3c31362c20313c3c3234290021,  -- return randUint32Range(1<<16, 1<<24)
  0x09097d2c0022,  -- },
  0x09092f2f203420627974652c0023,
  0x090966756e6328292075696e743332207b0024,  -- func() uint32 {
  0x09090972657475726e2072616e6455696e74333252616e676528313c3c32342c206d6174682e4d617855696e743332290025,  -- return randUint32Range(1<<24, math.MaxUint32)
  0x09097d2c0026,  -- },
  0x097d0027,  -- }
  0x290028,  -- )
  0x0029,
  0x2f2f2052616e6455696e7433322067656e65726174657320612072616e646f6d206e756d626572207468617420697320616c736f20756e69666f726d6c792072616e646f6d002a,
  0x2f2f206f6e20746865206178697320666f7220746865206e756d626572206f6620627974657320726571756972656420746f20656e636f64652069742e204974206669727374002b,
  0x2f2f2072616e646f6d6c792063686f6f73657320612062797465206c656e6774682c20692e652e20312c20322c2033206f72203420616e64207468656e2072616e646f6d6c79002c,
  0x2f2f2067656e6572617465732061206e756d6265722077686f736520656e636f646564206c656e67746820776f756c642062652074686174206c656e6774682e002d,
  0x66756e632052616e6455696e74333228292075696e743332207b002e,  -- func RandUint32() uint32 {
  0x0972657475726e2067656e657261746f72735b72616e642e496e74282925345d2829002f,  -- return generators[rand.Int()%4]()
  0x7d0030]  -- }

/-- `/repo/tools/parse_and_write_bench.go`. -/
def benchGo : List Nat := [
  0x7061636b616765206d61696e0001,  -- package main
  0x0002,
  0x696d706f727420280003,  -- import (
  0x0922627566696f220004,  -- "bufio"
  0x09226279746573220005,  -- "bytes"
  0x0922666c6167220006,  -- "flag"
  0x0922696f220007,  -- "io"
  0x09226c6f67220008,  -- "log"
  0x09226f73220009,  -- "os"
  0x0922706174682f66696c657061746822000a,  -- "path/filepath"
  0x0922737472696e677322000b,  -- "strings"
  0x000c,
  0x09226769746875622e636f6d2f7468654d506174656c2f73747265616d76627974652d73696d64676f2f706b672f7574696c22000d,  -- "github.com/theMPatel/streamvbyte-simdgo/pkg/util"
  0x29000e,  -- )
  0x000f,
  0x636f6e737420280010,  -- const (
  0x09676f6f73203d2022676f6f73220011,  -- goos = "goos"
  0x09676f61726368203d2022676f61726368220012,  -- goarch = "goarch"
  0x09706b67203d2022706b67220013,  -- pkg = "pkg"
  0x09637075203d2022637075220014,  -- cpu = "cpu"
  0x0962656e63686d61726b203d202242656e63686d61726b220015,  -- benchmark = "Benchmark"
  0x09646173686573203d20222d2d220016,  -- dashes = "--"
  0x09737461727453656e74696e656c203d202223232042656e63686d61726b735c6e5c6e606060746578745c6e220017,  -- startSentinel = "## Benchmarks\n\n```text\n"
  0x09656e6453656e74696e656c203d20226060605c6e220018,  -- endSentinel = "```\n"
  0x290019,  -- )
  0x001a,
  0x7661722028001b,  -- var (
  0x0976616c69645072656669786573203d205b5d737472696e677b001c,  -- validPrefixes = []string{
  0x0909676f6f732c001d,  -- goos,
  0x0909676f617263682c001e,  -- goarch,
  0x0909706b672c001f,  -- pkg,
  0x09096370752c0020,  -- cpu,
  0x090962656e63686d61726b2c0021,  -- benchmark,
  0x097d0022,  -- }
  0x0023,
  0x09726561646d6546696c65203d2066696c65706174682e4a6f696e286f732e476574656e76282253425954455f484f4d4522292c2022524541444d452e6d6422290024,  -- readmeFile = filepath.Join(os.Getenv("SBYTE_HOME"), "README.md")
  0x096657726974654f7574203d20666c61672e426f6f6c282277222c2066616c73652c20227772697465206f757420746f20726561646d6522290025,  -- fWriteOut = flag.Bool("w", false, "write out to readme")
  0x290026,  -- )
  0x0027,
  0x66756e6320616e7950726566697828696e20737472696e672920626f6f6c207b0028,  -- func anyPrefix(in string) bool {
  0x09666f72205f2c2070203a3d2072616e67652076616c69645072656669786573207b0029,  -- for _, p := range validPrefixes {
  0x0909696620737472696e67732e48617350726566697828696e2c207029207b002a,  -- if strings.HasPrefix(in, p) {
  0x09090972657475726e2074727565002b,  -- return true
  0x09097d002c,  -- }
  0x097d002d,  -- }
  0x002e,
  0x0972657475726e2066616c7365002f,  -- return false
  0x7d0030,  -- }
  0x0031,
  0x66756e63206d61696e2829207b0032,  -- func main() {
  0x09666c61672e506172736528290033,  -- flag.Parse()
  0x0976617220280034,  -- var (
  0x09096c696e6573205b5d737472696e670035,  -- lines []string
  0x090968617342656e6368203d2066616c73650036,  -- hasBench = false
  0x09290037,  -- )
  0x0038,
  0x097363616e6e6572203a3d20627566696f2e4e65775363616e6e6572286f732e537464696e290039,  -- scanner := bufio.NewScanner(os.Stdin)
  0x09666f72207363616e6e65722e5363616e2829207b003a,  -- for scanner.Scan() {
  0x09096c696e65203a3d207363616e6e65722e546578742829003b,  -- line := scanner.Text()
  0x0909696620616e79507265666978286c696e6529207b003c,  -- if anyPrefix(line) {
  0x090909656d697444617368203a3d20737472696e67732e486173507265666978286c696e652c2063707529003d,  -- emitDash := strings.HasPrefix(line, cpu)
  0x09090968617342656e6368203d2068617342656e6368207c7c20737472696e67732e486173507265666978286c696e652c2062656e63686d61726b29003e,  -- hasBench = hasBench || strings.HasPrefix(line, benchmark)
  0x090909656d69744e65776c696e65203a3d2068617342656e636820262620737472696e67732e486173507265666978286c696e652c20676f6f7329003f,  -- emitNewline := hasBench && strings.HasPrefix(line, goos)
  0x0040,
  0x090909696620656d69744e65776c696e65207b0041,  -- if emitNewline {
  0x090909096c696e6573203d20617070656e64286c696e65732c202222290042,  -- lines = append(lines, "")
  0x0909097d0043,  -- }
  0x09090969662068617342656e6368207b0044,  -- if hasBench {
  0x090909096c696e65203d20737472696e67732e5472696d507265666978286c696e652c2062656e63686d61726b290045,  -- line = strings.TrimPrefix(line, benchmark)
  0x0909097d0046,  -- }
  0x0909096c696e6573203d20617070656e64286c696e65732c206c696e65290047,  -- lines = append(lines, line)
  0x090909696620656d697444617368207b0048,  -- if emitDash {
  0x090909096c696e6573203d20617070656e64286c696e65732c20646173686573290049,  -- lines = append(lines, dashes)
  0x0909097d004a,  -- }
  0x09097d004b,  -- }
  0x097d004c,  -- }
  0x004d,
  0x09696620657272203a3d207363616e6e65722e45727228293b2065727220213d206e696c207b004e,  -- if err := scanner.Err(); err != nil {
  0x09096c6f672e466174616c6628226661696c656420746f207265616420696e7075743a202573222c2065727229004f,  -- log.Fatalf("failed to read input: %s", err)
  0x097d0050,  -- }
  0x0051,
  0x096f757470757446696c652c20657272203a3d206f732e4f70656e28726561646d6546696c65290052,  -- outputFile, err := os.Open(readmeFile)
  0x0969662065727220213d206e696c207b0053,  -- if err != nil {
  0x09096c6f672e466174616c6628226661696c656420746f206f70656e2066696c653a2025732c202573222c20726561646d6546696c652c20657272290054,  -- log.Fatalf("failed to open file: %s, %s", readmeFile, err)
  0x097d0055,  -- }
  0x0056,
  0x09616c6c446174612c20657272203a3d20696f2e52656164416c6c286f757470757446696c65290057,  -- allData, err := io.ReadAll(outputFile)
  0x0969662065727220213d206e696c207b0058,  -- if err != nil {
  0x09096c6f672e466174616c6628226661696c656420746f20726561642066696c653a2025732c202573222c20726561646d6546696c652c20657272290059,  -- log.Fatalf("failed to read file: %s, %s", readmeFile, err)
  0x097d005a,  -- }
  0x005b,
  0x097574696c2e53696c656e74436c6f7365286f757470757446696c6529005c,  -- util.SilentClose(outputFile)
  0x005d,
  0x09625374617274203a3d205b5d6279746528737461727453656e74696e656c29005e,  -- bStart := []byte(startSentinel)
  0x0962456e64203a3d205b5d6279746528656e6453656e74696e656c29005f,  -- bEnd := []byte(endSentinel)
  0x0060,
  0x097374617274203a3d2062797465732e496e64657828616c6c446174612c20625374617274290061,  -- start := bytes.Index(allData, bStart)
  0x096966207374617274203c2030207b0062,  -- if start < 0 {
  0x09096c6f672e466174616c662822636f756c646e27742066696e642073746172742073656e74696e656c22290063,  -- log.Fatalf("couldn't find start sentinel")
  0x097d0064,  -- }
  0x0065,
  0x09726573745374617274203a3d2062797465732e496e64657828616c6c446174612c2062456e64290066,  -- restStart := bytes.Index(allData, bEnd)
  0x0067,
  0x097661722066696e616c205b5d627974650068,  -- var final []byte
  0x0966696e616c203d20617070656e642866696e616c2c20616c6c446174615b3a73746172745d2e2e2e290069,  -- final = append(final, allData[:start]...)
  0x0966696e616c203d20617070656e642866696e616c2c206253746172742e2e2e29006a,  -- final = append(final, bStart...)
  0x0966696e616c203d20617070656e642866696e616c2c205b5d6279746528737472696e67732e4a6f696e286c696e65732c20225c6e2229292e2e2e29006b,  -- final = append(final, []byte(strings.Join(lines, "\n"))...)
  0x0966696e616c203d20617070656e642866696e616c2c20275c6e2729006c,  -- final = append(final, '\n')
  0x0966696e616c203d20617070656e642866696e616c2c20616c6c446174615b7265737453746172743a5d2e2e2e29006d,  -- final = append(final, allData[restStart:]...)
  0x006e,
  0x09766172206f757420696f2e577269746572006f,  -- var out io.Writer
  0x096966202a6657726974654f7574207b0070,  -- if *fWriteOut {
  0x09096f757470757446696c652c20657272203d206f732e43726561746528726561646d6546696c65290071,  -- outputFile, err = os.Create(readmeFile)
  0x090969662065727220213d206e696c207b0072,  -- if err != nil {
  0x0909096c6f672e466174616c6628226661696c656420746f206f70656e2066696c653a2025732c202573222c20726561646d6546696c652c20657272290073,  -- log.Fatalf("failed to open file: %s, %s", readmeFile, err)
  0x09097d0074,  -- }
  0x09096465666572207574696c2e53696c656e74436c6f7365286f757470757446696c65290075,  -- defer util.SilentClose(outputFile)
  0x09096f7574203d206f757470757446696c650076,  -- out = outputFile
  0x097d20656c7365207b0077,  -- } else {
  0x09096f7574203d206f732e5374646f75740078,  -- out = os.Stdout
  0x097d0079,  -- }
  0x007a,
  0x095f2c20657272203d206f75742e57726974652866696e616c29007b,  -- _, err = out.Write(final)
  0x0969662065727220213d206e696c207b007c,  -- if err != nil {
  0x09096c6f672e466174616c6628226661696c656420746f20777269746520746f2066696c653a2025732c202573222c20726561646d6546696c652c2065727229007d,  -- log.Fatalf("failed to write to file: %s, %s", readmeFile, err)
  0x097d007e,  -- }
  0x7d007f]  -- }

end SVB.Sources
