/-!
# The texts of the generated files of `/repo` and of the Go files that declare the assembly functions

GENERATED by `/verif/scripts/gen_sources.py`: one number per line of the file, its bytes followed by two bytes for the line
number, read as a big-endian number.  (Without the line numbers many of these numbers would end in the same 64 bits, which
makes the kernel slow.)  `Verif.Model.SourceText` reads them.
-/
set_option autoImplicit false
set_option maxRecDepth 100000

namespace SVB.Sources

/-- `/repo/pkg/shared/tables.go:1-128`. -/
def tablesGo0 : List Nat := [
  0x2f2f20436f64652067656e6572617465642062792067656e7461626c65732e20444f204e4f5420454449542e0001,
  0x0002,
  0x7061636b616765207368617265640003,
  0x0004,
  0x766172205065724e756d4c656e5461626c65202a5b3235365d5b345d75696e7438203d20265b3235365d5b345d75696e74387b0005,
  0x097b312c20312c20312c20317d2c207b322c20312c20312c20317d2c207b332c20312c20312c20317d2c207b342c20312c20312c20317d2c0006,
  0x097b312c20322c20312c20317d2c207b322c20322c20312c20317d2c207b332c20322c20312c20317d2c207b342c20322c20312c20317d2c0007,
  0x097b312c20332c20312c20317d2c207b322c20332c20312c20317d2c207b332c20332c20312c20317d2c207b342c20332c20312c20317d2c0008,
  0x097b312c20342c20312c20317d2c207b322c20342c20312c20317d2c207b332c20342c20312c20317d2c207b342c20342c20312c20317d2c0009,
  0x097b312c20312c20322c20317d2c207b322c20312c20322c20317d2c207b332c20312c20322c20317d2c207b342c20312c20322c20317d2c000a,
  0x097b312c20322c20322c20317d2c207b322c20322c20322c20317d2c207b332c20322c20322c20317d2c207b342c20322c20322c20317d2c000b,
  0x097b312c20332c20322c20317d2c207b322c20332c20322c20317d2c207b332c20332c20322c20317d2c207b342c20332c20322c20317d2c000c,
  0x097b312c20342c20322c20317d2c207b322c20342c20322c20317d2c207b332c20342c20322c20317d2c207b342c20342c20322c20317d2c000d,
  0x097b312c20312c20332c20317d2c207b322c20312c20332c20317d2c207b332c20312c20332c20317d2c207b342c20312c20332c20317d2c000e,
  0x097b312c20322c20332c20317d2c207b322c20322c20332c20317d2c207b332c20322c20332c20317d2c207b342c20322c20332c20317d2c000f,
  0x097b312c20332c20332c20317d2c207b322c20332c20332c20317d2c207b332c20332c20332c20317d2c207b342c20332c20332c20317d2c0010,
  0x097b312c20342c20332c20317d2c207b322c20342c20332c20317d2c207b332c20342c20332c20317d2c207b342c20342c20332c20317d2c0011,
  0x097b312c20312c20342c20317d2c207b322c20312c20342c20317d2c207b332c20312c20342c20317d2c207b342c20312c20342c20317d2c0012,
  0x097b312c20322c20342c20317d2c207b322c20322c20342c20317d2c207b332c20322c20342c20317d2c207b342c20322c20342c20317d2c0013,
  0x097b312c20332c20342c20317d2c207b322c20332c20342c20317d2c207b332c20332c20342c20317d2c207b342c20332c20342c20317d2c0014,
  0x097b312c20342c20342c20317d2c207b322c20342c20342c20317d2c207b332c20342c20342c20317d2c207b342c20342c20342c20317d2c0015,
  0x097b312c20312c20312c20327d2c207b322c20312c20312c20327d2c207b332c20312c20312c20327d2c207b342c20312c20312c20327d2c0016,
  0x097b312c20322c20312c20327d2c207b322c20322c20312c20327d2c207b332c20322c20312c20327d2c207b342c20322c20312c20327d2c0017,
  0x097b312c20332c20312c20327d2c207b322c20332c20312c20327d2c207b332c20332c20312c20327d2c207b342c20332c20312c20327d2c0018,
  0x097b312c20342c20312c20327d2c207b322c20342c20312c20327d2c207b332c20342c20312c20327d2c207b342c20342c20312c20327d2c0019,
  0x097b312c20312c20322c20327d2c207b322c20312c20322c20327d2c207b332c20312c20322c20327d2c207b342c20312c20322c20327d2c001a,
  0x097b312c20322c20322c20327d2c207b322c20322c20322c20327d2c207b332c20322c20322c20327d2c207b342c20322c20322c20327d2c001b,
  0x097b312c20332c20322c20327d2c207b322c20332c20322c20327d2c207b332c20332c20322c20327d2c207b342c20332c20322c20327d2c001c,
  0x097b312c20342c20322c20327d2c207b322c20342c20322c20327d2c207b332c20342c20322c20327d2c207b342c20342c20322c20327d2c001d,
  0x097b312c20312c20332c20327d2c207b322c20312c20332c20327d2c207b332c20312c20332c20327d2c207b342c20312c20332c20327d2c001e,
  0x097b312c20322c20332c20327d2c207b322c20322c20332c20327d2c207b332c20322c20332c20327d2c207b342c20322c20332c20327d2c001f,
  0x097b312c20332c20332c20327d2c207b322c20332c20332c20327d2c207b332c20332c20332c20327d2c207b342c20332c20332c20327d2c0020,
  0x097b312c20342c20332c20327d2c207b322c20342c20332c20327d2c207b332c20342c20332c20327d2c207b342c20342c20332c20327d2c0021,
  0x097b312c20312c20342c20327d2c207b322c20312c20342c20327d2c207b332c20312c20342c20327d2c207b342c20312c20342c20327d2c0022,
  0x097b312c20322c20342c20327d2c207b322c20322c20342c20327d2c207b332c20322c20342c20327d2c207b342c20322c20342c20327d2c0023,
  0x097b312c20332c20342c20327d2c207b322c20332c20342c20327d2c207b332c20332c20342c20327d2c207b342c20332c20342c20327d2c0024,
  0x097b312c20342c20342c20327d2c207b322c20342c20342c20327d2c207b332c20342c20342c20327d2c207b342c20342c20342c20327d2c0025,
  0x097b312c20312c20312c20337d2c207b322c20312c20312c20337d2c207b332c20312c20312c20337d2c207b342c20312c20312c20337d2c0026,
  0x097b312c20322c20312c20337d2c207b322c20322c20312c20337d2c207b332c20322c20312c20337d2c207b342c20322c20312c20337d2c0027,
  0x097b312c20332c20312c20337d2c207b322c20332c20312c20337d2c207b332c20332c20312c20337d2c207b342c20332c20312c20337d2c0028,
  0x097b312c20342c20312c20337d2c207b322c20342c20312c20337d2c207b332c20342c20312c20337d2c207b342c20342c20312c20337d2c0029,
  0x097b312c20312c20322c20337d2c207b322c20312c20322c20337d2c207b332c20312c20322c20337d2c207b342c20312c20322c20337d2c002a,
  0x097b312c20322c20322c20337d2c207b322c20322c20322c20337d2c207b332c20322c20322c20337d2c207b342c20322c20322c20337d2c002b,
  0x097b312c20332c20322c20337d2c207b322c20332c20322c20337d2c207b332c20332c20322c20337d2c207b342c20332c20322c20337d2c002c,
  0x097b312c20342c20322c20337d2c207b322c20342c20322c20337d2c207b332c20342c20322c20337d2c207b342c20342c20322c20337d2c002d,
  0x097b312c20312c20332c20337d2c207b322c20312c20332c20337d2c207b332c20312c20332c20337d2c207b342c20312c20332c20337d2c002e,
  0x097b312c20322c20332c20337d2c207b322c20322c20332c20337d2c207b332c20322c20332c20337d2c207b342c20322c20332c20337d2c002f,
  0x097b312c20332c20332c20337d2c207b322c20332c20332c20337d2c207b332c20332c20332c20337d2c207b342c20332c20332c20337d2c0030,
  0x097b312c20342c20332c20337d2c207b322c20342c20332c20337d2c207b332c20342c20332c20337d2c207b342c20342c20332c20337d2c0031,
  0x097b312c20312c20342c20337d2c207b322c20312c20342c20337d2c207b332c20312c20342c20337d2c207b342c20312c20342c20337d2c0032,
  0x097b312c20322c20342c20337d2c207b322c20322c20342c20337d2c207b332c20322c20342c20337d2c207b342c20322c20342c20337d2c0033,
  0x097b312c20332c20342c20337d2c207b322c20332c20342c20337d2c207b332c20332c20342c20337d2c207b342c20332c20342c20337d2c0034,
  0x097b312c20342c20342c20337d2c207b322c20342c20342c20337d2c207b332c20342c20342c20337d2c207b342c20342c20342c20337d2c0035,
  0x097b312c20312c20312c20347d2c207b322c20312c20312c20347d2c207b332c20312c20312c20347d2c207b342c20312c20312c20347d2c0036,
  0x097b312c20322c20312c20347d2c207b322c20322c20312c20347d2c207b332c20322c20312c20347d2c207b342c20322c20312c20347d2c0037,
  0x097b312c20332c20312c20347d2c207b322c20332c20312c20347d2c207b332c20332c20312c20347d2c207b342c20332c20312c20347d2c0038,
  0x097b312c20342c20312c20347d2c207b322c20342c20312c20347d2c207b332c20342c20312c20347d2c207b342c20342c20312c20347d2c0039,
  0x097b312c20312c20322c20347d2c207b322c20312c20322c20347d2c207b332c20312c20322c20347d2c207b342c20312c20322c20347d2c003a,
  0x097b312c20322c20322c20347d2c207b322c20322c20322c20347d2c207b332c20322c20322c20347d2c207b342c20322c20322c20347d2c003b,
  0x097b312c20332c20322c20347d2c207b322c20332c20322c20347d2c207b332c20332c20322c20347d2c207b342c20332c20322c20347d2c003c,
  0x097b312c20342c20322c20347d2c207b322c20342c20322c20347d2c207b332c20342c20322c20347d2c207b342c20342c20322c20347d2c003d,
  0x097b312c20312c20332c20347d2c207b322c20312c20332c20347d2c207b332c20312c20332c20347d2c207b342c20312c20332c20347d2c003e,
  0x097b312c20322c20332c20347d2c207b322c20322c20332c20347d2c207b332c20322c20332c20347d2c207b342c20322c20332c20347d2c003f,
  0x097b312c20332c20332c20347d2c207b322c20332c20332c20347d2c207b332c20332c20332c20347d2c207b342c20332c20332c20347d2c0040,
  0x097b312c20342c20332c20347d2c207b322c20342c20332c20347d2c207b332c20342c20332c20347d2c207b342c20342c20332c20347d2c0041,
  0x097b312c20312c20342c20347d2c207b322c20312c20342c20347d2c207b332c20312c20342c20347d2c207b342c20312c20342c20347d2c0042,
  0x097b312c20322c20342c20347d2c207b322c20322c20342c20347d2c207b332c20322c20342c20347d2c207b342c20322c20342c20347d2c0043,
  0x097b312c20332c20342c20347d2c207b322c20332c20342c20347d2c207b332c20332c20342c20347d2c207b342c20332c20342c20347d2c0044,
  0x097b312c20342c20342c20347d2c207b322c20342c20342c20347d2c207b332c20342c20342c20347d2c207b342c20342c20342c20347d2c0045,
  0x7d0046,
  0x0047,
  0x76617220506572436f6e74726f6c4c656e5461626c65202a5b3235365d75696e7438203d20265b3235365d75696e74387b0048,
  0x09342c20352c20362c20372c20352c20362c20372c20382c0049,
  0x09362c20372c20382c20392c20372c20382c20392c2031302c004a,
  0x09352c20362c20372c20382c20362c20372c20382c20392c004b,
  0x09372c20382c20392c2031302c20382c20392c2031302c2031312c004c,
  0x09362c20372c20382c20392c20372c20382c20392c2031302c004d,
  0x09382c20392c2031302c2031312c20392c2031302c2031312c2031322c004e,
  0x09372c20382c20392c2031302c20382c20392c2031302c2031312c004f,
  0x09392c2031302c2031312c2031322c2031302c2031312c2031322c2031332c0050,
  0x09352c20362c20372c20382c20362c20372c20382c20392c0051,
  0x09372c20382c20392c2031302c20382c20392c2031302c2031312c0052,
  0x09362c20372c20382c20392c20372c20382c20392c2031302c0053,
  0x09382c20392c2031302c2031312c20392c2031302c2031312c2031322c0054,
  0x09372c20382c20392c2031302c20382c20392c2031302c2031312c0055,
  0x09392c2031302c2031312c2031322c2031302c2031312c2031322c2031332c0056,
  0x09382c20392c2031302c2031312c20392c2031302c2031312c2031322c0057,
  0x0931302c2031312c2031322c2031332c2031312c2031322c2031332c2031342c0058,
  0x09362c20372c20382c20392c20372c20382c20392c2031302c0059,
  0x09382c20392c2031302c2031312c20392c2031302c2031312c2031322c005a,
  0x09372c20382c20392c2031302c20382c20392c2031302c2031312c005b,
  0x09392c2031302c2031312c2031322c2031302c2031312c2031322c2031332c005c,
  0x09382c20392c2031302c2031312c20392c2031302c2031312c2031322c005d,
  0x0931302c2031312c2031322c2031332c2031312c2031322c2031332c2031342c005e,
  0x09392c2031302c2031312c2031322c2031302c2031312c2031322c2031332c005f,
  0x0931312c2031322c2031332c2031342c2031322c2031332c2031342c2031352c0060,
  0x09372c20382c20392c2031302c20382c20392c2031302c2031312c0061,
  0x09392c2031302c2031312c2031322c2031302c2031312c2031322c2031332c0062,
  0x09382c20392c2031302c2031312c20392c2031302c2031312c2031322c0063,
  0x0931302c2031312c2031322c2031332c2031312c2031322c2031332c2031342c0064,
  0x09392c2031302c2031312c2031322c2031302c2031312c2031322c2031332c0065,
  0x0931312c2031322c2031332c2031342c2031322c2031332c2031342c2031352c0066,
  0x0931302c2031312c2031322c2031332c2031312c2031322c2031332c2031342c0067,
  0x0931322c2031332c2031342c2031352c2031332c2031342c2031352c2031362c0068,
  0x7d0069,
  0x006a,
  0x76617220456e636f646553687566666c655461626c65202a5b3235365d5b31365d75696e7438203d20265b3235365d5b31365d75696e74387b006b,
  0x092f2f20300930783030093030303030303030096c656e0931093109310931006c,
  0x097b307830302c20307830342c20307830382c20307830632c20307866662c20307866662c20307866662c20307866662c20307866662c20307866662c20307866662c20307866662c20307866662c20307866662c20307866662c20307866667d2c006d,
  0x092f2f20310930783031093030303030303031096c656e0932093109310931006e,
  0x097b307830302c20307830312c20307830342c20307830382c20307830632c20307866662c20307866662c20307866662c20307866662c20307866662c20307866662c20307866662c20307866662c20307866662c20307866662c20307866667d2c006f,
  0x092f2f20320930783032093030303030303130096c656e09330931093109310070,
  0x097b307830302c20307830312c20307830322c20307830342c20307830382c20307830632c20307866662c20307866662c20307866662c20307866662c20307866662c20307866662c20307866662c20307866662c20307866662c20307866667d2c0071,
  0x092f2f20330930783033093030303030303131096c656e09340931093109310072,
  0x097b307830302c20307830312c20307830322c20307830332c20307830342c20307830382c20307830632c20307866662c20307866662c20307866662c20307866662c20307866662c20307866662c20307866662c20307866662c20307866667d2c0073,
  0x092f2f20340930783034093030303030313030096c656e09310932093109310074,
  0x097b307830302c20307830342c20307830352c20307830382c20307830632c20307866662c20307866662c20307866662c20307866662c20307866662c20307866662c20307866662c20307866662c20307866662c20307866662c20307866667d2c0075,
  0x092f2f20350930783035093030303030313031096c656e09320932093109310076,
  0x097b307830302c20307830312c20307830342c20307830352c20307830382c20307830632c20307866662c20307866662c20307866662c20307866662c20307866662c20307866662c20307866662c20307866662c20307866662c20307866667d2c0077,
  0x092f2f20360930783036093030303030313130096c656e09330932093109310078,
  0x097b307830302c20307830312c20307830322c20307830342c20307830352c20307830382c20307830632c20307866662c20307866662c20307866662c20307866662c20307866662c20307866662c20307866662c20307866662c20307866667d2c0079,
  0x092f2f20370930783037093030303030313131096c656e0934093209310931007a,
  0x097b307830302c20307830312c20307830322c20307830332c20307830342c20307830352c20307830382c20307830632c20307866662c20307866662c20307866662c20307866662c20307866662c20307866662c20307866662c20307866667d2c007b,
  0x092f2f20380930783038093030303031303030096c656e0931093309310931007c,
  0x097b307830302c20307830342c20307830352c20307830362c20307830382c20307830632c20307866662c20307866662c20307866662c20307866662c20307866662c20307866662c20307866662c20307866662c20307866662c20307866667d2c007d,
  0x092f2f20390930783039093030303031303031096c656e0932093309310931007e,
  0x097b307830302c20307830312c20307830342c20307830352c20307830362c20307830382c20307830632c20307866662c20307866662c20307866662c20307866662c20307866662c20307866662c20307866662c20307866662c20307866667d2c007f,
  0x092f2f2031300930783061093030303031303130096c656e09330933093109310080]

/-- `/repo/pkg/shared/tables.go:129-256`. -/
def tablesGo1 : List Nat := [
  0x097b307830302c20307830312c20307830322c20307830342c20307830352c20307830362c20307830382c20307830632c20307866662c20307866662c20307866662c20307866662c20307866662c20307866662c20307866662c20307866667d2c0081,
  0x092f2f2031310930783062093030303031303131096c656e09340933093109310082,
  0x097b307830302c20307830312c20307830322c20307830332c20307830342c20307830352c20307830362c20307830382c20307830632c20307866662c20307866662c20307866662c20307866662c20307866662c20307866662c20307866667d2c0083,
  0x092f2f2031320930783063093030303031313030096c656e09310934093109310084,
  0x097b307830302c20307830342c20307830352c20307830362c20307830372c20307830382c20307830632c20307866662c20307866662c20307866662c20307866662c20307866662c20307866662c20307866662c20307866662c20307866667d2c0085,
  0x092f2f2031330930783064093030303031313031096c656e09320934093109310086,
  0x097b307830302c20307830312c20307830342c20307830352c20307830362c20307830372c20307830382c20307830632c20307866662c20307866662c20307866662c20307866662c20307866662c20307866662c20307866662c20307866667d2c0087,
  0x092f2f2031340930783065093030303031313130096c656e09330934093109310088,
  0x097b307830302c20307830312c20307830322c20307830342c20307830352c20307830362c20307830372c20307830382c20307830632c20307866662c20307866662c20307866662c20307866662c20307866662c20307866662c20307866667d2c0089,
  0x092f2f2031350930783066093030303031313131096c656e0934093409310931008a,
  0x097b307830302c20307830312c20307830322c20307830332c20307830342c20307830352c20307830362c20307830372c20307830382c20307830632c20307866662c20307866662c20307866662c20307866662c20307866662c20307866667d2c008b,
  0x092f2f2031360930783130093030303130303030096c656e0931093109320931008c,
  0x097b307830302c20307830342c20307830382c20307830392c20307830632c20307866662c20307866662c20307866662c20307866662c20307866662c20307866662c20307866662c20307866662c20307866662c20307866662c20307866667d2c008d,
  0x092f2f2031370930783131093030303130303031096c656e0932093109320931008e,
  0x097b307830302c20307830312c20307830342c20307830382c20307830392c20307830632c20307866662c20307866662c20307866662c20307866662c20307866662c20307866662c20307866662c20307866662c20307866662c20307866667d2c008f,
  0x092f2f2031380930783132093030303130303130096c656e09330931093209310090,
  0x097b307830302c20307830312c20307830322c20307830342c20307830382c20307830392c20307830632c20307866662c20307866662c20307866662c20307866662c20307866662c20307866662c20307866662c20307866662c20307866667d2c0091,
  0x092f2f2031390930783133093030303130303131096c656e09340931093209310092,
  0x097b307830302c20307830312c20307830322c20307830332c20307830342c20307830382c20307830392c20307830632c20307866662c20307866662c20307866662c20307866662c20307866662c20307866662c20307866662c20307866667d2c0093,
  0x092f2f2032300930783134093030303130313030096c656e09310932093209310094,
  0x097b307830302c20307830342c20307830352c20307830382c20307830392c20307830632c20307866662c20307866662c20307866662c20307866662c20307866662c20307866662c20307866662c20307866662c20307866662c20307866667d2c0095,
  0x092f2f2032310930783135093030303130313031096c656e09320932093209310096,
  0x097b307830302c20307830312c20307830342c20307830352c20307830382c20307830392c20307830632c20307866662c20307866662c20307866662c20307866662c20307866662c20307866662c20307866662c20307866662c20307866667d2c0097,
  0x092f2f2032320930783136093030303130313130096c656e09330932093209310098,
  0x097b307830302c20307830312c20307830322c20307830342c20307830352c20307830382c20307830392c20307830632c20307866662c20307866662c20307866662c20307866662c20307866662c20307866662c20307866662c20307866667d2c0099,
  0x092f2f2032330930783137093030303130313131096c656e0934093209320931009a,
  0x097b307830302c20307830312c20307830322c20307830332c20307830342c20307830352c20307830382c20307830392c20307830632c20307866662c20307866662c20307866662c20307866662c20307866662c20307866662c20307866667d2c009b,
  0x092f2f2032340930783138093030303131303030096c656e0931093309320931009c,
  0x097b307830302c20307830342c20307830352c20307830362c20307830382c20307830392c20307830632c20307866662c20307866662c20307866662c20307866662c20307866662c20307866662c20307866662c20307866662c20307866667d2c009d,
  0x092f2f2032350930783139093030303131303031096c656e0932093309320931009e,
  0x097b307830302c20307830312c20307830342c20307830352c20307830362c20307830382c20307830392c20307830632c20307866662c20307866662c20307866662c20307866662c20307866662c20307866662c20307866662c20307866667d2c009f,
  0x092f2f2032360930783161093030303131303130096c656e093309330932093100a0,
  0x097b307830302c20307830312c20307830322c20307830342c20307830352c20307830362c20307830382c20307830392c20307830632c20307866662c20307866662c20307866662c20307866662c20307866662c20307866662c20307866667d2c00a1,
  0x092f2f2032370930783162093030303131303131096c656e093409330932093100a2,
  0x097b307830302c20307830312c20307830322c20307830332c20307830342c20307830352c20307830362c20307830382c20307830392c20307830632c20307866662c20307866662c20307866662c20307866662c20307866662c20307866667d2c00a3,
  0x092f2f2032380930783163093030303131313030096c656e093109340932093100a4,
  0x097b307830302c20307830342c20307830352c20307830362c20307830372c20307830382c20307830392c20307830632c20307866662c20307866662c20307866662c20307866662c20307866662c20307866662c20307866662c20307866667d2c00a5,
  0x092f2f2032390930783164093030303131313031096c656e093209340932093100a6,
  0x097b307830302c20307830312c20307830342c20307830352c20307830362c20307830372c20307830382c20307830392c20307830632c20307866662c20307866662c20307866662c20307866662c20307866662c20307866662c20307866667d2c00a7,
  0x092f2f2033300930783165093030303131313130096c656e093309340932093100a8,
  0x097b307830302c20307830312c20307830322c20307830342c20307830352c20307830362c20307830372c20307830382c20307830392c20307830632c20307866662c20307866662c20307866662c20307866662c20307866662c20307866667d2c00a9,
  0x092f2f2033310930783166093030303131313131096c656e093409340932093100aa,
  0x097b307830302c20307830312c20307830322c20307830332c20307830342c20307830352c20307830362c20307830372c20307830382c20307830392c20307830632c20307866662c20307866662c20307866662c20307866662c20307866667d2c00ab,
  0x092f2f2033320930783230093030313030303030096c656e093109310933093100ac,
  0x097b307830302c20307830342c20307830382c20307830392c20307830612c20307830632c20307866662c20307866662c20307866662c20307866662c20307866662c20307866662c20307866662c20307866662c20307866662c20307866667d2c00ad,
  0x092f2f2033330930783231093030313030303031096c656e093209310933093100ae,
  0x097b307830302c20307830312c20307830342c20307830382c20307830392c20307830612c20307830632c20307866662c20307866662c20307866662c20307866662c20307866662c20307866662c20307866662c20307866662c20307866667d2c00af,
  0x092f2f2033340930783232093030313030303130096c656e093309310933093100b0,
  0x097b307830302c20307830312c20307830322c20307830342c20307830382c20307830392c20307830612c20307830632c20307866662c20307866662c20307866662c20307866662c20307866662c20307866662c20307866662c20307866667d2c00b1,
  0x092f2f2033350930783233093030313030303131096c656e093409310933093100b2,
  0x097b307830302c20307830312c20307830322c20307830332c20307830342c20307830382c20307830392c20307830612c20307830632c20307866662c20307866662c20307866662c20307866662c20307866662c20307866662c20307866667d2c00b3,
  0x092f2f2033360930783234093030313030313030096c656e093109320933093100b4,
  0x097b307830302c20307830342c20307830352c20307830382c20307830392c20307830612c20307830632c20307866662c20307866662c20307866662c20307866662c20307866662c20307866662c20307866662c20307866662c20307866667d2c00b5,
  0x092f2f2033370930783235093030313030313031096c656e093209320933093100b6,
  0x097b307830302c20307830312c20307830342c20307830352c20307830382c20307830392c20307830612c20307830632c20307866662c20307866662c20307866662c20307866662c20307866662c20307866662c20307866662c20307866667d2c00b7,
  0x092f2f2033380930783236093030313030313130096c656e093309320933093100b8,
  0x097b307830302c20307830312c20307830322c20307830342c20307830352c20307830382c20307830392c20307830612c20307830632c20307866662c20307866662c20307866662c20307866662c20307866662c20307866662c20307866667d2c00b9,
  0x092f2f2033390930783237093030313030313131096c656e093409320933093100ba,
  0x097b307830302c20307830312c20307830322c20307830332c20307830342c20307830352c20307830382c20307830392c20307830612c20307830632c20307866662c20307866662c20307866662c20307866662c20307866662c20307866667d2c00bb,
  0x092f2f2034300930783238093030313031303030096c656e093109330933093100bc,
  0x097b307830302c20307830342c20307830352c20307830362c20307830382c20307830392c20307830612c20307830632c20307866662c20307866662c20307866662c20307866662c20307866662c20307866662c20307866662c20307866667d2c00bd,
  0x092f2f2034310930783239093030313031303031096c656e093209330933093100be,
  0x097b307830302c20307830312c20307830342c20307830352c20307830362c20307830382c20307830392c20307830612c20307830632c20307866662c20307866662c20307866662c20307866662c20307866662c20307866662c20307866667d2c00bf,
  0x092f2f2034320930783261093030313031303130096c656e093309330933093100c0,
  0x097b307830302c20307830312c20307830322c20307830342c20307830352c20307830362c20307830382c20307830392c20307830612c20307830632c20307866662c20307866662c20307866662c20307866662c20307866662c20307866667d2c00c1,
  0x092f2f2034330930783262093030313031303131096c656e093409330933093100c2,
  0x097b307830302c20307830312c20307830322c20307830332c20307830342c20307830352c20307830362c20307830382c20307830392c20307830612c20307830632c20307866662c20307866662c20307866662c20307866662c20307866667d2c00c3,
  0x092f2f2034340930783263093030313031313030096c656e093109340933093100c4,
  0x097b307830302c20307830342c20307830352c20307830362c20307830372c20307830382c20307830392c20307830612c20307830632c20307866662c20307866662c20307866662c20307866662c20307866662c20307866662c20307866667d2c00c5,
  0x092f2f2034350930783264093030313031313031096c656e093209340933093100c6,
  0x097b307830302c20307830312c20307830342c20307830352c20307830362c20307830372c20307830382c20307830392c20307830612c20307830632c20307866662c20307866662c20307866662c20307866662c20307866662c20307866667d2c00c7,
  0x092f2f2034360930783265093030313031313130096c656e093309340933093100c8,
  0x097b307830302c20307830312c20307830322c20307830342c20307830352c20307830362c20307830372c20307830382c20307830392c20307830612c20307830632c20307866662c20307866662c20307866662c20307866662c20307866667d2c00c9,
  0x092f2f2034370930783266093030313031313131096c656e093409340933093100ca,
  0x097b307830302c20307830312c20307830322c20307830332c20307830342c20307830352c20307830362c20307830372c20307830382c20307830392c20307830612c20307830632c20307866662c20307866662c20307866662c20307866667d2c00cb,
  0x092f2f2034380930783330093030313130303030096c656e093109310934093100cc,
  0x097b307830302c20307830342c20307830382c20307830392c20307830612c20307830622c20307830632c20307866662c20307866662c20307866662c20307866662c20307866662c20307866662c20307866662c20307866662c20307866667d2c00cd,
  0x092f2f2034390930783331093030313130303031096c656e093209310934093100ce,
  0x097b307830302c20307830312c20307830342c20307830382c20307830392c20307830612c20307830622c20307830632c20307866662c20307866662c20307866662c20307866662c20307866662c20307866662c20307866662c20307866667d2c00cf,
  0x092f2f2035300930783332093030313130303130096c656e093309310934093100d0,
  0x097b307830302c20307830312c20307830322c20307830342c20307830382c20307830392c20307830612c20307830622c20307830632c20307866662c20307866662c20307866662c20307866662c20307866662c20307866662c20307866667d2c00d1,
  0x092f2f2035310930783333093030313130303131096c656e093409310934093100d2,
  0x097b307830302c20307830312c20307830322c20307830332c20307830342c20307830382c20307830392c20307830612c20307830622c20307830632c20307866662c20307866662c20307866662c20307866662c20307866662c20307866667d2c00d3,
  0x092f2f2035320930783334093030313130313030096c656e093109320934093100d4,
  0x097b307830302c20307830342c20307830352c20307830382c20307830392c20307830612c20307830622c20307830632c20307866662c20307866662c20307866662c20307866662c20307866662c20307866662c20307866662c20307866667d2c00d5,
  0x092f2f2035330930783335093030313130313031096c656e093209320934093100d6,
  0x097b307830302c20307830312c20307830342c20307830352c20307830382c20307830392c20307830612c20307830622c20307830632c20307866662c20307866662c20307866662c20307866662c20307866662c20307866662c20307866667d2c00d7,
  0x092f2f2035340930783336093030313130313130096c656e093309320934093100d8,
  0x097b307830302c20307830312c20307830322c20307830342c20307830352c20307830382c20307830392c20307830612c20307830622c20307830632c20307866662c20307866662c20307866662c20307866662c20307866662c20307866667d2c00d9,
  0x092f2f2035350930783337093030313130313131096c656e093409320934093100da,
  0x097b307830302c20307830312c20307830322c20307830332c20307830342c20307830352c20307830382c20307830392c20307830612c20307830622c20307830632c20307866662c20307866662c20307866662c20307866662c20307866667d2c00db,
  0x092f2f2035360930783338093030313131303030096c656e093109330934093100dc,
  0x097b307830302c20307830342c20307830352c20307830362c20307830382c20307830392c20307830612c20307830622c20307830632c20307866662c20307866662c20307866662c20307866662c20307866662c20307866662c20307866667d2c00dd,
  0x092f2f2035370930783339093030313131303031096c656e093209330934093100de,
  0x097b307830302c20307830312c20307830342c20307830352c20307830362c20307830382c20307830392c20307830612c20307830622c20307830632c20307866662c20307866662c20307866662c20307866662c20307866662c20307866667d2c00df,
  0x092f2f2035380930783361093030313131303130096c656e093309330934093100e0,
  0x097b307830302c20307830312c20307830322c20307830342c20307830352c20307830362c20307830382c20307830392c20307830612c20307830622c20307830632c20307866662c20307866662c20307866662c20307866662c20307866667d2c00e1,
  0x092f2f2035390930783362093030313131303131096c656e093409330934093100e2,
  0x097b307830302c20307830312c20307830322c20307830332c20307830342c20307830352c20307830362c20307830382c20307830392c20307830612c20307830622c20307830632c20307866662c20307866662c20307866662c20307866667d2c00e3,
  0x092f2f2036300930783363093030313131313030096c656e093109340934093100e4,
  0x097b307830302c20307830342c20307830352c20307830362c20307830372c20307830382c20307830392c20307830612c20307830622c20307830632c20307866662c20307866662c20307866662c20307866662c20307866662c20307866667d2c00e5,
  0x092f2f2036310930783364093030313131313031096c656e093209340934093100e6,
  0x097b307830302c20307830312c20307830342c20307830352c20307830362c20307830372c20307830382c20307830392c20307830612c20307830622c20307830632c20307866662c20307866662c20307866662c20307866662c20307866667d2c00e7,
  0x092f2f2036320930783365093030313131313130096c656e093309340934093100e8,
  0x097b307830302c20307830312c20307830322c20307830342c20307830352c20307830362c20307830372c20307830382c20307830392c20307830612c20307830622c20307830632c20307866662c20307866662c20307866662c20307866667d2c00e9,
  0x092f2f2036330930783366093030313131313131096c656e093409340934093100ea,
  0x097b307830302c20307830312c20307830322c20307830332c20307830342c20307830352c20307830362c20307830372c20307830382c20307830392c20307830612c20307830622c20307830632c20307866662c20307866662c20307866667d2c00eb,
  0x092f2f2036340930783430093031303030303030096c656e093109310931093200ec,
  0x097b307830302c20307830342c20307830382c20307830632c20307830642c20307866662c20307866662c20307866662c20307866662c20307866662c20307866662c20307866662c20307866662c20307866662c20307866662c20307866667d2c00ed,
  0x092f2f2036350930783431093031303030303031096c656e093209310931093200ee,
  0x097b307830302c20307830312c20307830342c20307830382c20307830632c20307830642c20307866662c20307866662c20307866662c20307866662c20307866662c20307866662c20307866662c20307866662c20307866662c20307866667d2c00ef,
  0x092f2f2036360930783432093031303030303130096c656e093309310931093200f0,
  0x097b307830302c20307830312c20307830322c20307830342c20307830382c20307830632c20307830642c20307866662c20307866662c20307866662c20307866662c20307866662c20307866662c20307866662c20307866662c20307866667d2c00f1,
  0x092f2f2036370930783433093031303030303131096c656e093409310931093200f2,
  0x097b307830302c20307830312c20307830322c20307830332c20307830342c20307830382c20307830632c20307830642c20307866662c20307866662c20307866662c20307866662c20307866662c20307866662c20307866662c20307866667d2c00f3,
  0x092f2f2036380930783434093031303030313030096c656e093109320931093200f4,
  0x097b307830302c20307830342c20307830352c20307830382c20307830632c20307830642c20307866662c20307866662c20307866662c20307866662c20307866662c20307866662c20307866662c20307866662c20307866662c20307866667d2c00f5,
  0x092f2f2036390930783435093031303030313031096c656e093209320931093200f6,
  0x097b307830302c20307830312c20307830342c20307830352c20307830382c20307830632c20307830642c20307866662c20307866662c20307866662c20307866662c20307866662c20307866662c20307866662c20307866662c20307866667d2c00f7,
  0x092f2f2037300930783436093031303030313130096c656e093309320931093200f8,
  0x097b307830302c20307830312c20307830322c20307830342c20307830352c20307830382c20307830632c20307830642c20307866662c20307866662c20307866662c20307866662c20307866662c20307866662c20307866662c20307866667d2c00f9,
  0x092f2f2037310930783437093031303030313131096c656e093409320931093200fa,
  0x097b307830302c20307830312c20307830322c20307830332c20307830342c20307830352c20307830382c20307830632c20307830642c20307866662c20307866662c20307866662c20307866662c20307866662c20307866662c20307866667d2c00fb,
  0x092f2f2037320930783438093031303031303030096c656e093109330931093200fc,
  0x097b307830302c20307830342c20307830352c20307830362c20307830382c20307830632c20307830642c20307866662c20307866662c20307866662c20307866662c20307866662c20307866662c20307866662c20307866662c20307866667d2c00fd,
  0x092f2f2037330930783439093031303031303031096c656e093209330931093200fe,
  0x097b307830302c20307830312c20307830342c20307830352c20307830362c20307830382c20307830632c20307830642c20307866662c20307866662c20307866662c20307866662c20307866662c20307866662c20307866662c20307866667d2c00ff,
  0x092f2f2037340930783461093031303031303130096c656e09330933093109320100]

/-- `/repo/pkg/shared/tables.go:257-384`. -/
def tablesGo2 : List Nat := [
  0x097b307830302c20307830312c20307830322c20307830342c20307830352c20307830362c20307830382c20307830632c20307830642c20307866662c20307866662c20307866662c20307866662c20307866662c20307866662c20307866667d2c0101,
  0x092f2f2037350930783462093031303031303131096c656e09340933093109320102,
  0x097b307830302c20307830312c20307830322c20307830332c20307830342c20307830352c20307830362c20307830382c20307830632c20307830642c20307866662c20307866662c20307866662c20307866662c20307866662c20307866667d2c0103,
  0x092f2f2037360930783463093031303031313030096c656e09310934093109320104,
  0x097b307830302c20307830342c20307830352c20307830362c20307830372c20307830382c20307830632c20307830642c20307866662c20307866662c20307866662c20307866662c20307866662c20307866662c20307866662c20307866667d2c0105,
  0x092f2f2037370930783464093031303031313031096c656e09320934093109320106,
  0x097b307830302c20307830312c20307830342c20307830352c20307830362c20307830372c20307830382c20307830632c20307830642c20307866662c20307866662c20307866662c20307866662c20307866662c20307866662c20307866667d2c0107,
  0x092f2f2037380930783465093031303031313130096c656e09330934093109320108,
  0x097b307830302c20307830312c20307830322c20307830342c20307830352c20307830362c20307830372c20307830382c20307830632c20307830642c20307866662c20307866662c20307866662c20307866662c20307866662c20307866667d2c0109,
  0x092f2f2037390930783466093031303031313131096c656e0934093409310932010a,
  0x097b307830302c20307830312c20307830322c20307830332c20307830342c20307830352c20307830362c20307830372c20307830382c20307830632c20307830642c20307866662c20307866662c20307866662c20307866662c20307866667d2c010b,
  0x092f2f2038300930783530093031303130303030096c656e0931093109320932010c,
  0x097b307830302c20307830342c20307830382c20307830392c20307830632c20307830642c20307866662c20307866662c20307866662c20307866662c20307866662c20307866662c20307866662c20307866662c20307866662c20307866667d2c010d,
  0x092f2f2038310930783531093031303130303031096c656e0932093109320932010e,
  0x097b307830302c20307830312c20307830342c20307830382c20307830392c20307830632c20307830642c20307866662c20307866662c20307866662c20307866662c20307866662c20307866662c20307866662c20307866662c20307866667d2c010f,
  0x092f2f2038320930783532093031303130303130096c656e09330931093209320110,
  0x097b307830302c20307830312c20307830322c20307830342c20307830382c20307830392c20307830632c20307830642c20307866662c20307866662c20307866662c20307866662c20307866662c20307866662c20307866662c20307866667d2c0111,
  0x092f2f2038330930783533093031303130303131096c656e09340931093209320112,
  0x097b307830302c20307830312c20307830322c20307830332c20307830342c20307830382c20307830392c20307830632c20307830642c20307866662c20307866662c20307866662c20307866662c20307866662c20307866662c20307866667d2c0113,
  0x092f2f2038340930783534093031303130313030096c656e09310932093209320114,
  0x097b307830302c20307830342c20307830352c20307830382c20307830392c20307830632c20307830642c20307866662c20307866662c20307866662c20307866662c20307866662c20307866662c20307866662c20307866662c20307866667d2c0115,
  0x092f2f2038350930783535093031303130313031096c656e09320932093209320116,
  0x097b307830302c20307830312c20307830342c20307830352c20307830382c20307830392c20307830632c20307830642c20307866662c20307866662c20307866662c20307866662c20307866662c20307866662c20307866662c20307866667d2c0117,
  0x092f2f2038360930783536093031303130313130096c656e09330932093209320118,
  0x097b307830302c20307830312c20307830322c20307830342c20307830352c20307830382c20307830392c20307830632c20307830642c20307866662c20307866662c20307866662c20307866662c20307866662c20307866662c20307866667d2c0119,
  0x092f2f2038370930783537093031303130313131096c656e0934093209320932011a,
  0x097b307830302c20307830312c20307830322c20307830332c20307830342c20307830352c20307830382c20307830392c20307830632c20307830642c20307866662c20307866662c20307866662c20307866662c20307866662c20307866667d2c011b,
  0x092f2f2038380930783538093031303131303030096c656e0931093309320932011c,
  0x097b307830302c20307830342c20307830352c20307830362c20307830382c20307830392c20307830632c20307830642c20307866662c20307866662c20307866662c20307866662c20307866662c20307866662c20307866662c20307866667d2c011d,
  0x092f2f2038390930783539093031303131303031096c656e0932093309320932011e,
  0x097b307830302c20307830312c20307830342c20307830352c20307830362c20307830382c20307830392c20307830632c20307830642c20307866662c20307866662c20307866662c20307866662c20307866662c20307866662c20307866667d2c011f,
  0x092f2f2039300930783561093031303131303130096c656e09330933093209320120,
  0x097b307830302c20307830312c20307830322c20307830342c20307830352c20307830362c20307830382c20307830392c20307830632c20307830642c20307866662c20307866662c20307866662c20307866662c20307866662c20307866667d2c0121,
  0x092f2f2039310930783562093031303131303131096c656e09340933093209320122,
  0x097b307830302c20307830312c20307830322c20307830332c20307830342c20307830352c20307830362c20307830382c20307830392c20307830632c20307830642c20307866662c20307866662c20307866662c20307866662c20307866667d2c0123,
  0x092f2f2039320930783563093031303131313030096c656e09310934093209320124,
  0x097b307830302c20307830342c20307830352c20307830362c20307830372c20307830382c20307830392c20307830632c20307830642c20307866662c20307866662c20307866662c20307866662c20307866662c20307866662c20307866667d2c0125,
  0x092f2f2039330930783564093031303131313031096c656e09320934093209320126,
  0x097b307830302c20307830312c20307830342c20307830352c20307830362c20307830372c20307830382c20307830392c20307830632c20307830642c20307866662c20307866662c20307866662c20307866662c20307866662c20307866667d2c0127,
  0x092f2f2039340930783565093031303131313130096c656e09330934093209320128,
  0x097b307830302c20307830312c20307830322c20307830342c20307830352c20307830362c20307830372c20307830382c20307830392c20307830632c20307830642c20307866662c20307866662c20307866662c20307866662c20307866667d2c0129,
  0x092f2f2039350930783566093031303131313131096c656e0934093409320932012a,
  0x097b307830302c20307830312c20307830322c20307830332c20307830342c20307830352c20307830362c20307830372c20307830382c20307830392c20307830632c20307830642c20307866662c20307866662c20307866662c20307866667d2c012b,
  0x092f2f2039360930783630093031313030303030096c656e0931093109330932012c,
  0x097b307830302c20307830342c20307830382c20307830392c20307830612c20307830632c20307830642c20307866662c20307866662c20307866662c20307866662c20307866662c20307866662c20307866662c20307866662c20307866667d2c012d,
  0x092f2f2039370930783631093031313030303031096c656e0932093109330932012e,
  0x097b307830302c20307830312c20307830342c20307830382c20307830392c20307830612c20307830632c20307830642c20307866662c20307866662c20307866662c20307866662c20307866662c20307866662c20307866662c20307866667d2c012f,
  0x092f2f2039380930783632093031313030303130096c656e09330931093309320130,
  0x097b307830302c20307830312c20307830322c20307830342c20307830382c20307830392c20307830612c20307830632c20307830642c20307866662c20307866662c20307866662c20307866662c20307866662c20307866662c20307866667d2c0131,
  0x092f2f2039390930783633093031313030303131096c656e09340931093309320132,
  0x097b307830302c20307830312c20307830322c20307830332c20307830342c20307830382c20307830392c20307830612c20307830632c20307830642c20307866662c20307866662c20307866662c20307866662c20307866662c20307866667d2c0133,
  0x092f2f203130300930783634093031313030313030096c656e09310932093309320134,
  0x097b307830302c20307830342c20307830352c20307830382c20307830392c20307830612c20307830632c20307830642c20307866662c20307866662c20307866662c20307866662c20307866662c20307866662c20307866662c20307866667d2c0135,
  0x092f2f203130310930783635093031313030313031096c656e09320932093309320136,
  0x097b307830302c20307830312c20307830342c20307830352c20307830382c20307830392c20307830612c20307830632c20307830642c20307866662c20307866662c20307866662c20307866662c20307866662c20307866662c20307866667d2c0137,
  0x092f2f203130320930783636093031313030313130096c656e09330932093309320138,
  0x097b307830302c20307830312c20307830322c20307830342c20307830352c20307830382c20307830392c20307830612c20307830632c20307830642c20307866662c20307866662c20307866662c20307866662c20307866662c20307866667d2c0139,
  0x092f2f203130330930783637093031313030313131096c656e0934093209330932013a,
  0x097b307830302c20307830312c20307830322c20307830332c20307830342c20307830352c20307830382c20307830392c20307830612c20307830632c20307830642c20307866662c20307866662c20307866662c20307866662c20307866667d2c013b,
  0x092f2f203130340930783638093031313031303030096c656e0931093309330932013c,
  0x097b307830302c20307830342c20307830352c20307830362c20307830382c20307830392c20307830612c20307830632c20307830642c20307866662c20307866662c20307866662c20307866662c20307866662c20307866662c20307866667d2c013d,
  0x092f2f203130350930783639093031313031303031096c656e0932093309330932013e,
  0x097b307830302c20307830312c20307830342c20307830352c20307830362c20307830382c20307830392c20307830612c20307830632c20307830642c20307866662c20307866662c20307866662c20307866662c20307866662c20307866667d2c013f,
  0x092f2f203130360930783661093031313031303130096c656e09330933093309320140,
  0x097b307830302c20307830312c20307830322c20307830342c20307830352c20307830362c20307830382c20307830392c20307830612c20307830632c20307830642c20307866662c20307866662c20307866662c20307866662c20307866667d2c0141,
  0x092f2f203130370930783662093031313031303131096c656e09340933093309320142,
  0x097b307830302c20307830312c20307830322c20307830332c20307830342c20307830352c20307830362c20307830382c20307830392c20307830612c20307830632c20307830642c20307866662c20307866662c20307866662c20307866667d2c0143,
  0x092f2f203130380930783663093031313031313030096c656e09310934093309320144,
  0x097b307830302c20307830342c20307830352c20307830362c20307830372c20307830382c20307830392c20307830612c20307830632c20307830642c20307866662c20307866662c20307866662c20307866662c20307866662c20307866667d2c0145,
  0x092f2f203130390930783664093031313031313031096c656e09320934093309320146,
  0x097b307830302c20307830312c20307830342c20307830352c20307830362c20307830372c20307830382c20307830392c20307830612c20307830632c20307830642c20307866662c20307866662c20307866662c20307866662c20307866667d2c0147,
  0x092f2f203131300930783665093031313031313130096c656e09330934093309320148,
  0x097b307830302c20307830312c20307830322c20307830342c20307830352c20307830362c20307830372c20307830382c20307830392c20307830612c20307830632c20307830642c20307866662c20307866662c20307866662c20307866667d2c0149,
  0x092f2f203131310930783666093031313031313131096c656e0934093409330932014a,
  0x097b307830302c20307830312c20307830322c20307830332c20307830342c20307830352c20307830362c20307830372c20307830382c20307830392c20307830612c20307830632c20307830642c20307866662c20307866662c20307866667d2c014b,
  0x092f2f203131320930783730093031313130303030096c656e0931093109340932014c,
  0x097b307830302c20307830342c20307830382c20307830392c20307830612c20307830622c20307830632c20307830642c20307866662c20307866662c20307866662c20307866662c20307866662c20307866662c20307866662c20307866667d2c014d,
  0x092f2f203131330930783731093031313130303031096c656e0932093109340932014e,
  0x097b307830302c20307830312c20307830342c20307830382c20307830392c20307830612c20307830622c20307830632c20307830642c20307866662c20307866662c20307866662c20307866662c20307866662c20307866662c20307866667d2c014f,
  0x092f2f203131340930783732093031313130303130096c656e09330931093409320150,
  0x097b307830302c20307830312c20307830322c20307830342c20307830382c20307830392c20307830612c20307830622c20307830632c20307830642c20307866662c20307866662c20307866662c20307866662c20307866662c20307866667d2c0151,
  0x092f2f203131350930783733093031313130303131096c656e09340931093409320152,
  0x097b307830302c20307830312c20307830322c20307830332c20307830342c20307830382c20307830392c20307830612c20307830622c20307830632c20307830642c20307866662c20307866662c20307866662c20307866662c20307866667d2c0153,
  0x092f2f203131360930783734093031313130313030096c656e09310932093409320154,
  0x097b307830302c20307830342c20307830352c20307830382c20307830392c20307830612c20307830622c20307830632c20307830642c20307866662c20307866662c20307866662c20307866662c20307866662c20307866662c20307866667d2c0155,
  0x092f2f203131370930783735093031313130313031096c656e09320932093409320156,
  0x097b307830302c20307830312c20307830342c20307830352c20307830382c20307830392c20307830612c20307830622c20307830632c20307830642c20307866662c20307866662c20307866662c20307866662c20307866662c20307866667d2c0157,
  0x092f2f203131380930783736093031313130313130096c656e09330932093409320158,
  0x097b307830302c20307830312c20307830322c20307830342c20307830352c20307830382c20307830392c20307830612c20307830622c20307830632c20307830642c20307866662c20307866662c20307866662c20307866662c20307866667d2c0159,
  0x092f2f203131390930783737093031313130313131096c656e0934093209340932015a,
  0x097b307830302c20307830312c20307830322c20307830332c20307830342c20307830352c20307830382c20307830392c20307830612c20307830622c20307830632c20307830642c20307866662c20307866662c20307866662c20307866667d2c015b,
  0x092f2f203132300930783738093031313131303030096c656e0931093309340932015c,
  0x097b307830302c20307830342c20307830352c20307830362c20307830382c20307830392c20307830612c20307830622c20307830632c20307830642c20307866662c20307866662c20307866662c20307866662c20307866662c20307866667d2c015d,
  0x092f2f203132310930783739093031313131303031096c656e0932093309340932015e,
  0x097b307830302c20307830312c20307830342c20307830352c20307830362c20307830382c20307830392c20307830612c20307830622c20307830632c20307830642c20307866662c20307866662c20307866662c20307866662c20307866667d2c015f,
  0x092f2f203132320930783761093031313131303130096c656e09330933093409320160,
  0x097b307830302c20307830312c20307830322c20307830342c20307830352c20307830362c20307830382c20307830392c20307830612c20307830622c20307830632c20307830642c20307866662c20307866662c20307866662c20307866667d2c0161,
  0x092f2f203132330930783762093031313131303131096c656e09340933093409320162,
  0x097b307830302c20307830312c20307830322c20307830332c20307830342c20307830352c20307830362c20307830382c20307830392c20307830612c20307830622c20307830632c20307830642c20307866662c20307866662c20307866667d2c0163,
  0x092f2f203132340930783763093031313131313030096c656e09310934093409320164,
  0x097b307830302c20307830342c20307830352c20307830362c20307830372c20307830382c20307830392c20307830612c20307830622c20307830632c20307830642c20307866662c20307866662c20307866662c20307866662c20307866667d2c0165,
  0x092f2f203132350930783764093031313131313031096c656e09320934093409320166,
  0x097b307830302c20307830312c20307830342c20307830352c20307830362c20307830372c20307830382c20307830392c20307830612c20307830622c20307830632c20307830642c20307866662c20307866662c20307866662c20307866667d2c0167,
  0x092f2f203132360930783765093031313131313130096c656e09330934093409320168,
  0x097b307830302c20307830312c20307830322c20307830342c20307830352c20307830362c20307830372c20307830382c20307830392c20307830612c20307830622c20307830632c20307830642c20307866662c20307866662c20307866667d2c0169,
  0x092f2f203132370930783766093031313131313131096c656e0934093409340932016a,
  0x097b307830302c20307830312c20307830322c20307830332c20307830342c20307830352c20307830362c20307830372c20307830382c20307830392c20307830612c20307830622c20307830632c20307830642c20307866662c20307866667d2c016b,
  0x092f2f203132380930783830093130303030303030096c656e0931093109310933016c,
  0x097b307830302c20307830342c20307830382c20307830632c20307830642c20307830652c20307866662c20307866662c20307866662c20307866662c20307866662c20307866662c20307866662c20307866662c20307866662c20307866667d2c016d,
  0x092f2f203132390930783831093130303030303031096c656e0932093109310933016e,
  0x097b307830302c20307830312c20307830342c20307830382c20307830632c20307830642c20307830652c20307866662c20307866662c20307866662c20307866662c20307866662c20307866662c20307866662c20307866662c20307866667d2c016f,
  0x092f2f203133300930783832093130303030303130096c656e09330931093109330170,
  0x097b307830302c20307830312c20307830322c20307830342c20307830382c20307830632c20307830642c20307830652c20307866662c20307866662c20307866662c20307866662c20307866662c20307866662c20307866662c20307866667d2c0171,
  0x092f2f203133310930783833093130303030303131096c656e09340931093109330172,
  0x097b307830302c20307830312c20307830322c20307830332c20307830342c20307830382c20307830632c20307830642c20307830652c20307866662c20307866662c20307866662c20307866662c20307866662c20307866662c20307866667d2c0173,
  0x092f2f203133320930783834093130303030313030096c656e09310932093109330174,
  0x097b307830302c20307830342c20307830352c20307830382c20307830632c20307830642c20307830652c20307866662c20307866662c20307866662c20307866662c20307866662c20307866662c20307866662c20307866662c20307866667d2c0175,
  0x092f2f203133330930783835093130303030313031096c656e09320932093109330176,
  0x097b307830302c20307830312c20307830342c20307830352c20307830382c20307830632c20307830642c20307830652c20307866662c20307866662c20307866662c20307866662c20307866662c20307866662c20307866662c20307866667d2c0177,
  0x092f2f203133340930783836093130303030313130096c656e09330932093109330178,
  0x097b307830302c20307830312c20307830322c20307830342c20307830352c20307830382c20307830632c20307830642c20307830652c20307866662c20307866662c20307866662c20307866662c20307866662c20307866662c20307866667d2c0179,
  0x092f2f203133350930783837093130303030313131096c656e0934093209310933017a,
  0x097b307830302c20307830312c20307830322c20307830332c20307830342c20307830352c20307830382c20307830632c20307830642c20307830652c20307866662c20307866662c20307866662c20307866662c20307866662c20307866667d2c017b,
  0x092f2f203133360930783838093130303031303030096c656e0931093309310933017c,
  0x097b307830302c20307830342c20307830352c20307830362c20307830382c20307830632c20307830642c20307830652c20307866662c20307866662c20307866662c20307866662c20307866662c20307866662c20307866662c20307866667d2c017d,
  0x092f2f203133370930783839093130303031303031096c656e0932093309310933017e,
  0x097b307830302c20307830312c20307830342c20307830352c20307830362c20307830382c20307830632c20307830642c20307830652c20307866662c20307866662c20307866662c20307866662c20307866662c20307866662c20307866667d2c017f,
  0x092f2f203133380930783861093130303031303130096c656e09330933093109330180]

/-- `/repo/pkg/shared/tables.go:385-512`. -/
def tablesGo3 : List Nat := [
  0x097b307830302c20307830312c20307830322c20307830342c20307830352c20307830362c20307830382c20307830632c20307830642c20307830652c20307866662c20307866662c20307866662c20307866662c20307866662c20307866667d2c0181,
  0x092f2f203133390930783862093130303031303131096c656e09340933093109330182,
  0x097b307830302c20307830312c20307830322c20307830332c20307830342c20307830352c20307830362c20307830382c20307830632c20307830642c20307830652c20307866662c20307866662c20307866662c20307866662c20307866667d2c0183,
  0x092f2f203134300930783863093130303031313030096c656e09310934093109330184,
  0x097b307830302c20307830342c20307830352c20307830362c20307830372c20307830382c20307830632c20307830642c20307830652c20307866662c20307866662c20307866662c20307866662c20307866662c20307866662c20307866667d2c0185,
  0x092f2f203134310930783864093130303031313031096c656e09320934093109330186,
  0x097b307830302c20307830312c20307830342c20307830352c20307830362c20307830372c20307830382c20307830632c20307830642c20307830652c20307866662c20307866662c20307866662c20307866662c20307866662c20307866667d2c0187,
  0x092f2f203134320930783865093130303031313130096c656e09330934093109330188,
  0x097b307830302c20307830312c20307830322c20307830342c20307830352c20307830362c20307830372c20307830382c20307830632c20307830642c20307830652c20307866662c20307866662c20307866662c20307866662c20307866667d2c0189,
  0x092f2f203134330930783866093130303031313131096c656e0934093409310933018a,
  0x097b307830302c20307830312c20307830322c20307830332c20307830342c20307830352c20307830362c20307830372c20307830382c20307830632c20307830642c20307830652c20307866662c20307866662c20307866662c20307866667d2c018b,
  0x092f2f203134340930783930093130303130303030096c656e0931093109320933018c,
  0x097b307830302c20307830342c20307830382c20307830392c20307830632c20307830642c20307830652c20307866662c20307866662c20307866662c20307866662c20307866662c20307866662c20307866662c20307866662c20307866667d2c018d,
  0x092f2f203134350930783931093130303130303031096c656e0932093109320933018e,
  0x097b307830302c20307830312c20307830342c20307830382c20307830392c20307830632c20307830642c20307830652c20307866662c20307866662c20307866662c20307866662c20307866662c20307866662c20307866662c20307866667d2c018f,
  0x092f2f203134360930783932093130303130303130096c656e09330931093209330190,
  0x097b307830302c20307830312c20307830322c20307830342c20307830382c20307830392c20307830632c20307830642c20307830652c20307866662c20307866662c20307866662c20307866662c20307866662c20307866662c20307866667d2c0191,
  0x092f2f203134370930783933093130303130303131096c656e09340931093209330192,
  0x097b307830302c20307830312c20307830322c20307830332c20307830342c20307830382c20307830392c20307830632c20307830642c20307830652c20307866662c20307866662c20307866662c20307866662c20307866662c20307866667d2c0193,
  0x092f2f203134380930783934093130303130313030096c656e09310932093209330194,
  0x097b307830302c20307830342c20307830352c20307830382c20307830392c20307830632c20307830642c20307830652c20307866662c20307866662c20307866662c20307866662c20307866662c20307866662c20307866662c20307866667d2c0195,
  0x092f2f203134390930783935093130303130313031096c656e09320932093209330196,
  0x097b307830302c20307830312c20307830342c20307830352c20307830382c20307830392c20307830632c20307830642c20307830652c20307866662c20307866662c20307866662c20307866662c20307866662c20307866662c20307866667d2c0197,
  0x092f2f203135300930783936093130303130313130096c656e09330932093209330198,
  0x097b307830302c20307830312c20307830322c20307830342c20307830352c20307830382c20307830392c20307830632c20307830642c20307830652c20307866662c20307866662c20307866662c20307866662c20307866662c20307866667d2c0199,
  0x092f2f203135310930783937093130303130313131096c656e0934093209320933019a,
  0x097b307830302c20307830312c20307830322c20307830332c20307830342c20307830352c20307830382c20307830392c20307830632c20307830642c20307830652c20307866662c20307866662c20307866662c20307866662c20307866667d2c019b,
  0x092f2f203135320930783938093130303131303030096c656e0931093309320933019c,
  0x097b307830302c20307830342c20307830352c20307830362c20307830382c20307830392c20307830632c20307830642c20307830652c20307866662c20307866662c20307866662c20307866662c20307866662c20307866662c20307866667d2c019d,
  0x092f2f203135330930783939093130303131303031096c656e0932093309320933019e,
  0x097b307830302c20307830312c20307830342c20307830352c20307830362c20307830382c20307830392c20307830632c20307830642c20307830652c20307866662c20307866662c20307866662c20307866662c20307866662c20307866667d2c019f,
  0x092f2f203135340930783961093130303131303130096c656e093309330932093301a0,
  0x097b307830302c20307830312c20307830322c20307830342c20307830352c20307830362c20307830382c20307830392c20307830632c20307830642c20307830652c20307866662c20307866662c20307866662c20307866662c20307866667d2c01a1,
  0x092f2f203135350930783962093130303131303131096c656e093409330932093301a2,
  0x097b307830302c20307830312c20307830322c20307830332c20307830342c20307830352c20307830362c20307830382c20307830392c20307830632c20307830642c20307830652c20307866662c20307866662c20307866662c20307866667d2c01a3,
  0x092f2f203135360930783963093130303131313030096c656e093109340932093301a4,
  0x097b307830302c20307830342c20307830352c20307830362c20307830372c20307830382c20307830392c20307830632c20307830642c20307830652c20307866662c20307866662c20307866662c20307866662c20307866662c20307866667d2c01a5,
  0x092f2f203135370930783964093130303131313031096c656e093209340932093301a6,
  0x097b307830302c20307830312c20307830342c20307830352c20307830362c20307830372c20307830382c20307830392c20307830632c20307830642c20307830652c20307866662c20307866662c20307866662c20307866662c20307866667d2c01a7,
  0x092f2f203135380930783965093130303131313130096c656e093309340932093301a8,
  0x097b307830302c20307830312c20307830322c20307830342c20307830352c20307830362c20307830372c20307830382c20307830392c20307830632c20307830642c20307830652c20307866662c20307866662c20307866662c20307866667d2c01a9,
  0x092f2f203135390930783966093130303131313131096c656e093409340932093301aa,
  0x097b307830302c20307830312c20307830322c20307830332c20307830342c20307830352c20307830362c20307830372c20307830382c20307830392c20307830632c20307830642c20307830652c20307866662c20307866662c20307866667d2c01ab,
  0x092f2f203136300930786130093130313030303030096c656e093109310933093301ac,
  0x097b307830302c20307830342c20307830382c20307830392c20307830612c20307830632c20307830642c20307830652c20307866662c20307866662c20307866662c20307866662c20307866662c20307866662c20307866662c20307866667d2c01ad,
  0x092f2f203136310930786131093130313030303031096c656e093209310933093301ae,
  0x097b307830302c20307830312c20307830342c20307830382c20307830392c20307830612c20307830632c20307830642c20307830652c20307866662c20307866662c20307866662c20307866662c20307866662c20307866662c20307866667d2c01af,
  0x092f2f203136320930786132093130313030303130096c656e093309310933093301b0,
  0x097b307830302c20307830312c20307830322c20307830342c20307830382c20307830392c20307830612c20307830632c20307830642c20307830652c20307866662c20307866662c20307866662c20307866662c20307866662c20307866667d2c01b1,
  0x092f2f203136330930786133093130313030303131096c656e093409310933093301b2,
  0x097b307830302c20307830312c20307830322c20307830332c20307830342c20307830382c20307830392c20307830612c20307830632c20307830642c20307830652c20307866662c20307866662c20307866662c20307866662c20307866667d2c01b3,
  0x092f2f203136340930786134093130313030313030096c656e093109320933093301b4,
  0x097b307830302c20307830342c20307830352c20307830382c20307830392c20307830612c20307830632c20307830642c20307830652c20307866662c20307866662c20307866662c20307866662c20307866662c20307866662c20307866667d2c01b5,
  0x092f2f203136350930786135093130313030313031096c656e093209320933093301b6,
  0x097b307830302c20307830312c20307830342c20307830352c20307830382c20307830392c20307830612c20307830632c20307830642c20307830652c20307866662c20307866662c20307866662c20307866662c20307866662c20307866667d2c01b7,
  0x092f2f203136360930786136093130313030313130096c656e093309320933093301b8,
  0x097b307830302c20307830312c20307830322c20307830342c20307830352c20307830382c20307830392c20307830612c20307830632c20307830642c20307830652c20307866662c20307866662c20307866662c20307866662c20307866667d2c01b9,
  0x092f2f203136370930786137093130313030313131096c656e093409320933093301ba,
  0x097b307830302c20307830312c20307830322c20307830332c20307830342c20307830352c20307830382c20307830392c20307830612c20307830632c20307830642c20307830652c20307866662c20307866662c20307866662c20307866667d2c01bb,
  0x092f2f203136380930786138093130313031303030096c656e093109330933093301bc,
  0x097b307830302c20307830342c20307830352c20307830362c20307830382c20307830392c20307830612c20307830632c20307830642c20307830652c20307866662c20307866662c20307866662c20307866662c20307866662c20307866667d2c01bd,
  0x092f2f203136390930786139093130313031303031096c656e093209330933093301be,
  0x097b307830302c20307830312c20307830342c20307830352c20307830362c20307830382c20307830392c20307830612c20307830632c20307830642c20307830652c20307866662c20307866662c20307866662c20307866662c20307866667d2c01bf,
  0x092f2f203137300930786161093130313031303130096c656e093309330933093301c0,
  0x097b307830302c20307830312c20307830322c20307830342c20307830352c20307830362c20307830382c20307830392c20307830612c20307830632c20307830642c20307830652c20307866662c20307866662c20307866662c20307866667d2c01c1,
  0x092f2f203137310930786162093130313031303131096c656e093409330933093301c2,
  0x097b307830302c20307830312c20307830322c20307830332c20307830342c20307830352c20307830362c20307830382c20307830392c20307830612c20307830632c20307830642c20307830652c20307866662c20307866662c20307866667d2c01c3,
  0x092f2f203137320930786163093130313031313030096c656e093109340933093301c4,
  0x097b307830302c20307830342c20307830352c20307830362c20307830372c20307830382c20307830392c20307830612c20307830632c20307830642c20307830652c20307866662c20307866662c20307866662c20307866662c20307866667d2c01c5,
  0x092f2f203137330930786164093130313031313031096c656e093209340933093301c6,
  0x097b307830302c20307830312c20307830342c20307830352c20307830362c20307830372c20307830382c20307830392c20307830612c20307830632c20307830642c20307830652c20307866662c20307866662c20307866662c20307866667d2c01c7,
  0x092f2f203137340930786165093130313031313130096c656e093309340933093301c8,
  0x097b307830302c20307830312c20307830322c20307830342c20307830352c20307830362c20307830372c20307830382c20307830392c20307830612c20307830632c20307830642c20307830652c20307866662c20307866662c20307866667d2c01c9,
  0x092f2f203137350930786166093130313031313131096c656e093409340933093301ca,
  0x097b307830302c20307830312c20307830322c20307830332c20307830342c20307830352c20307830362c20307830372c20307830382c20307830392c20307830612c20307830632c20307830642c20307830652c20307866662c20307866667d2c01cb,
  0x092f2f203137360930786230093130313130303030096c656e093109310934093301cc,
  0x097b307830302c20307830342c20307830382c20307830392c20307830612c20307830622c20307830632c20307830642c20307830652c20307866662c20307866662c20307866662c20307866662c20307866662c20307866662c20307866667d2c01cd,
  0x092f2f203137370930786231093130313130303031096c656e093209310934093301ce,
  0x097b307830302c20307830312c20307830342c20307830382c20307830392c20307830612c20307830622c20307830632c20307830642c20307830652c20307866662c20307866662c20307866662c20307866662c20307866662c20307866667d2c01cf,
  0x092f2f203137380930786232093130313130303130096c656e093309310934093301d0,
  0x097b307830302c20307830312c20307830322c20307830342c20307830382c20307830392c20307830612c20307830622c20307830632c20307830642c20307830652c20307866662c20307866662c20307866662c20307866662c20307866667d2c01d1,
  0x092f2f203137390930786233093130313130303131096c656e093409310934093301d2,
  0x097b307830302c20307830312c20307830322c20307830332c20307830342c20307830382c20307830392c20307830612c20307830622c20307830632c20307830642c20307830652c20307866662c20307866662c20307866662c20307866667d2c01d3,
  0x092f2f203138300930786234093130313130313030096c656e093109320934093301d4,
  0x097b307830302c20307830342c20307830352c20307830382c20307830392c20307830612c20307830622c20307830632c20307830642c20307830652c20307866662c20307866662c20307866662c20307866662c20307866662c20307866667d2c01d5,
  0x092f2f203138310930786235093130313130313031096c656e093209320934093301d6,
  0x097b307830302c20307830312c20307830342c20307830352c20307830382c20307830392c20307830612c20307830622c20307830632c20307830642c20307830652c20307866662c20307866662c20307866662c20307866662c20307866667d2c01d7,
  0x092f2f203138320930786236093130313130313130096c656e093309320934093301d8,
  0x097b307830302c20307830312c20307830322c20307830342c20307830352c20307830382c20307830392c20307830612c20307830622c20307830632c20307830642c20307830652c20307866662c20307866662c20307866662c20307866667d2c01d9,
  0x092f2f203138330930786237093130313130313131096c656e093409320934093301da,
  0x097b307830302c20307830312c20307830322c20307830332c20307830342c20307830352c20307830382c20307830392c20307830612c20307830622c20307830632c20307830642c20307830652c20307866662c20307866662c20307866667d2c01db,
  0x092f2f203138340930786238093130313131303030096c656e093109330934093301dc,
  0x097b307830302c20307830342c20307830352c20307830362c20307830382c20307830392c20307830612c20307830622c20307830632c20307830642c20307830652c20307866662c20307866662c20307866662c20307866662c20307866667d2c01dd,
  0x092f2f203138350930786239093130313131303031096c656e093209330934093301de,
  0x097b307830302c20307830312c20307830342c20307830352c20307830362c20307830382c20307830392c20307830612c20307830622c20307830632c20307830642c20307830652c20307866662c20307866662c20307866662c20307866667d2c01df,
  0x092f2f203138360930786261093130313131303130096c656e093309330934093301e0,
  0x097b307830302c20307830312c20307830322c20307830342c20307830352c20307830362c20307830382c20307830392c20307830612c20307830622c20307830632c20307830642c20307830652c20307866662c20307866662c20307866667d2c01e1,
  0x092f2f203138370930786262093130313131303131096c656e093409330934093301e2,
  0x097b307830302c20307830312c20307830322c20307830332c20307830342c20307830352c20307830362c20307830382c20307830392c20307830612c20307830622c20307830632c20307830642c20307830652c20307866662c20307866667d2c01e3,
  0x092f2f203138380930786263093130313131313030096c656e093109340934093301e4,
  0x097b307830302c20307830342c20307830352c20307830362c20307830372c20307830382c20307830392c20307830612c20307830622c20307830632c20307830642c20307830652c20307866662c20307866662c20307866662c20307866667d2c01e5,
  0x092f2f203138390930786264093130313131313031096c656e093209340934093301e6,
  0x097b307830302c20307830312c20307830342c20307830352c20307830362c20307830372c20307830382c20307830392c20307830612c20307830622c20307830632c20307830642c20307830652c20307866662c20307866662c20307866667d2c01e7,
  0x092f2f203139300930786265093130313131313130096c656e093309340934093301e8,
  0x097b307830302c20307830312c20307830322c20307830342c20307830352c20307830362c20307830372c20307830382c20307830392c20307830612c20307830622c20307830632c20307830642c20307830652c20307866662c20307866667d2c01e9,
  0x092f2f203139310930786266093130313131313131096c656e093409340934093301ea,
  0x097b307830302c20307830312c20307830322c20307830332c20307830342c20307830352c20307830362c20307830372c20307830382c20307830392c20307830612c20307830622c20307830632c20307830642c20307830652c20307866667d2c01eb,
  0x092f2f203139320930786330093131303030303030096c656e093109310931093401ec,
  0x097b307830302c20307830342c20307830382c20307830632c20307830642c20307830652c20307830662c20307866662c20307866662c20307866662c20307866662c20307866662c20307866662c20307866662c20307866662c20307866667d2c01ed,
  0x092f2f203139330930786331093131303030303031096c656e093209310931093401ee,
  0x097b307830302c20307830312c20307830342c20307830382c20307830632c20307830642c20307830652c20307830662c20307866662c20307866662c20307866662c20307866662c20307866662c20307866662c20307866662c20307866667d2c01ef,
  0x092f2f203139340930786332093131303030303130096c656e093309310931093401f0,
  0x097b307830302c20307830312c20307830322c20307830342c20307830382c20307830632c20307830642c20307830652c20307830662c20307866662c20307866662c20307866662c20307866662c20307866662c20307866662c20307866667d2c01f1,
  0x092f2f203139350930786333093131303030303131096c656e093409310931093401f2,
  0x097b307830302c20307830312c20307830322c20307830332c20307830342c20307830382c20307830632c20307830642c20307830652c20307830662c20307866662c20307866662c20307866662c20307866662c20307866662c20307866667d2c01f3,
  0x092f2f203139360930786334093131303030313030096c656e093109320931093401f4,
  0x097b307830302c20307830342c20307830352c20307830382c20307830632c20307830642c20307830652c20307830662c20307866662c20307866662c20307866662c20307866662c20307866662c20307866662c20307866662c20307866667d2c01f5,
  0x092f2f203139370930786335093131303030313031096c656e093209320931093401f6,
  0x097b307830302c20307830312c20307830342c20307830352c20307830382c20307830632c20307830642c20307830652c20307830662c20307866662c20307866662c20307866662c20307866662c20307866662c20307866662c20307866667d2c01f7,
  0x092f2f203139380930786336093131303030313130096c656e093309320931093401f8,
  0x097b307830302c20307830312c20307830322c20307830342c20307830352c20307830382c20307830632c20307830642c20307830652c20307830662c20307866662c20307866662c20307866662c20307866662c20307866662c20307866667d2c01f9,
  0x092f2f203139390930786337093131303030313131096c656e093409320931093401fa,
  0x097b307830302c20307830312c20307830322c20307830332c20307830342c20307830352c20307830382c20307830632c20307830642c20307830652c20307830662c20307866662c20307866662c20307866662c20307866662c20307866667d2c01fb,
  0x092f2f203230300930786338093131303031303030096c656e093109330931093401fc,
  0x097b307830302c20307830342c20307830352c20307830362c20307830382c20307830632c20307830642c20307830652c20307830662c20307866662c20307866662c20307866662c20307866662c20307866662c20307866662c20307866667d2c01fd,
  0x092f2f203230310930786339093131303031303031096c656e093209330931093401fe,
  0x097b307830302c20307830312c20307830342c20307830352c20307830362c20307830382c20307830632c20307830642c20307830652c20307830662c20307866662c20307866662c20307866662c20307866662c20307866662c20307866667d2c01ff,
  0x092f2f203230320930786361093131303031303130096c656e09330933093109340200]

/-- `/repo/pkg/shared/tables.go:513-640`. -/
def tablesGo4 : List Nat := [
  0x097b307830302c20307830312c20307830322c20307830342c20307830352c20307830362c20307830382c20307830632c20307830642c20307830652c20307830662c20307866662c20307866662c20307866662c20307866662c20307866667d2c0201,
  0x092f2f203230330930786362093131303031303131096c656e09340933093109340202,
  0x097b307830302c20307830312c20307830322c20307830332c20307830342c20307830352c20307830362c20307830382c20307830632c20307830642c20307830652c20307830662c20307866662c20307866662c20307866662c20307866667d2c0203,
  0x092f2f203230340930786363093131303031313030096c656e09310934093109340204,
  0x097b307830302c20307830342c20307830352c20307830362c20307830372c20307830382c20307830632c20307830642c20307830652c20307830662c20307866662c20307866662c20307866662c20307866662c20307866662c20307866667d2c0205,
  0x092f2f203230350930786364093131303031313031096c656e09320934093109340206,
  0x097b307830302c20307830312c20307830342c20307830352c20307830362c20307830372c20307830382c20307830632c20307830642c20307830652c20307830662c20307866662c20307866662c20307866662c20307866662c20307866667d2c0207,
  0x092f2f203230360930786365093131303031313130096c656e09330934093109340208,
  0x097b307830302c20307830312c20307830322c20307830342c20307830352c20307830362c20307830372c20307830382c20307830632c20307830642c20307830652c20307830662c20307866662c20307866662c20307866662c20307866667d2c0209,
  0x092f2f203230370930786366093131303031313131096c656e0934093409310934020a,
  0x097b307830302c20307830312c20307830322c20307830332c20307830342c20307830352c20307830362c20307830372c20307830382c20307830632c20307830642c20307830652c20307830662c20307866662c20307866662c20307866667d2c020b,
  0x092f2f203230380930786430093131303130303030096c656e0931093109320934020c,
  0x097b307830302c20307830342c20307830382c20307830392c20307830632c20307830642c20307830652c20307830662c20307866662c20307866662c20307866662c20307866662c20307866662c20307866662c20307866662c20307866667d2c020d,
  0x092f2f203230390930786431093131303130303031096c656e0932093109320934020e,
  0x097b307830302c20307830312c20307830342c20307830382c20307830392c20307830632c20307830642c20307830652c20307830662c20307866662c20307866662c20307866662c20307866662c20307866662c20307866662c20307866667d2c020f,
  0x092f2f203231300930786432093131303130303130096c656e09330931093209340210,
  0x097b307830302c20307830312c20307830322c20307830342c20307830382c20307830392c20307830632c20307830642c20307830652c20307830662c20307866662c20307866662c20307866662c20307866662c20307866662c20307866667d2c0211,
  0x092f2f203231310930786433093131303130303131096c656e09340931093209340212,
  0x097b307830302c20307830312c20307830322c20307830332c20307830342c20307830382c20307830392c20307830632c20307830642c20307830652c20307830662c20307866662c20307866662c20307866662c20307866662c20307866667d2c0213,
  0x092f2f203231320930786434093131303130313030096c656e09310932093209340214,
  0x097b307830302c20307830342c20307830352c20307830382c20307830392c20307830632c20307830642c20307830652c20307830662c20307866662c20307866662c20307866662c20307866662c20307866662c20307866662c20307866667d2c0215,
  0x092f2f203231330930786435093131303130313031096c656e09320932093209340216,
  0x097b307830302c20307830312c20307830342c20307830352c20307830382c20307830392c20307830632c20307830642c20307830652c20307830662c20307866662c20307866662c20307866662c20307866662c20307866662c20307866667d2c0217,
  0x092f2f203231340930786436093131303130313130096c656e09330932093209340218,
  0x097b307830302c20307830312c20307830322c20307830342c20307830352c20307830382c20307830392c20307830632c20307830642c20307830652c20307830662c20307866662c20307866662c20307866662c20307866662c20307866667d2c0219,
  0x092f2f203231350930786437093131303130313131096c656e0934093209320934021a,
  0x097b307830302c20307830312c20307830322c20307830332c20307830342c20307830352c20307830382c20307830392c20307830632c20307830642c20307830652c20307830662c20307866662c20307866662c20307866662c20307866667d2c021b,
  0x092f2f203231360930786438093131303131303030096c656e0931093309320934021c,
  0x097b307830302c20307830342c20307830352c20307830362c20307830382c20307830392c20307830632c20307830642c20307830652c20307830662c20307866662c20307866662c20307866662c20307866662c20307866662c20307866667d2c021d,
  0x092f2f203231370930786439093131303131303031096c656e0932093309320934021e,
  0x097b307830302c20307830312c20307830342c20307830352c20307830362c20307830382c20307830392c20307830632c20307830642c20307830652c20307830662c20307866662c20307866662c20307866662c20307866662c20307866667d2c021f,
  0x092f2f203231380930786461093131303131303130096c656e09330933093209340220,
  0x097b307830302c20307830312c20307830322c20307830342c20307830352c20307830362c20307830382c20307830392c20307830632c20307830642c20307830652c20307830662c20307866662c20307866662c20307866662c20307866667d2c0221,
  0x092f2f203231390930786462093131303131303131096c656e09340933093209340222,
  0x097b307830302c20307830312c20307830322c20307830332c20307830342c20307830352c20307830362c20307830382c20307830392c20307830632c20307830642c20307830652c20307830662c20307866662c20307866662c20307866667d2c0223,
  0x092f2f203232300930786463093131303131313030096c656e09310934093209340224,
  0x097b307830302c20307830342c20307830352c20307830362c20307830372c20307830382c20307830392c20307830632c20307830642c20307830652c20307830662c20307866662c20307866662c20307866662c20307866662c20307866667d2c0225,
  0x092f2f203232310930786464093131303131313031096c656e09320934093209340226,
  0x097b307830302c20307830312c20307830342c20307830352c20307830362c20307830372c20307830382c20307830392c20307830632c20307830642c20307830652c20307830662c20307866662c20307866662c20307866662c20307866667d2c0227,
  0x092f2f203232320930786465093131303131313130096c656e09330934093209340228,
  0x097b307830302c20307830312c20307830322c20307830342c20307830352c20307830362c20307830372c20307830382c20307830392c20307830632c20307830642c20307830652c20307830662c20307866662c20307866662c20307866667d2c0229,
  0x092f2f203232330930786466093131303131313131096c656e0934093409320934022a,
  0x097b307830302c20307830312c20307830322c20307830332c20307830342c20307830352c20307830362c20307830372c20307830382c20307830392c20307830632c20307830642c20307830652c20307830662c20307866662c20307866667d2c022b,
  0x092f2f203232340930786530093131313030303030096c656e0931093109330934022c,
  0x097b307830302c20307830342c20307830382c20307830392c20307830612c20307830632c20307830642c20307830652c20307830662c20307866662c20307866662c20307866662c20307866662c20307866662c20307866662c20307866667d2c022d,
  0x092f2f203232350930786531093131313030303031096c656e0932093109330934022e,
  0x097b307830302c20307830312c20307830342c20307830382c20307830392c20307830612c20307830632c20307830642c20307830652c20307830662c20307866662c20307866662c20307866662c20307866662c20307866662c20307866667d2c022f,
  0x092f2f203232360930786532093131313030303130096c656e09330931093309340230,
  0x097b307830302c20307830312c20307830322c20307830342c20307830382c20307830392c20307830612c20307830632c20307830642c20307830652c20307830662c20307866662c20307866662c20307866662c20307866662c20307866667d2c0231,
  0x092f2f203232370930786533093131313030303131096c656e09340931093309340232,
  0x097b307830302c20307830312c20307830322c20307830332c20307830342c20307830382c20307830392c20307830612c20307830632c20307830642c20307830652c20307830662c20307866662c20307866662c20307866662c20307866667d2c0233,
  0x092f2f203232380930786534093131313030313030096c656e09310932093309340234,
  0x097b307830302c20307830342c20307830352c20307830382c20307830392c20307830612c20307830632c20307830642c20307830652c20307830662c20307866662c20307866662c20307866662c20307866662c20307866662c20307866667d2c0235,
  0x092f2f203232390930786535093131313030313031096c656e09320932093309340236,
  0x097b307830302c20307830312c20307830342c20307830352c20307830382c20307830392c20307830612c20307830632c20307830642c20307830652c20307830662c20307866662c20307866662c20307866662c20307866662c20307866667d2c0237,
  0x092f2f203233300930786536093131313030313130096c656e09330932093309340238,
  0x097b307830302c20307830312c20307830322c20307830342c20307830352c20307830382c20307830392c20307830612c20307830632c20307830642c20307830652c20307830662c20307866662c20307866662c20307866662c20307866667d2c0239,
  0x092f2f203233310930786537093131313030313131096c656e0934093209330934023a,
  0x097b307830302c20307830312c20307830322c20307830332c20307830342c20307830352c20307830382c20307830392c20307830612c20307830632c20307830642c20307830652c20307830662c20307866662c20307866662c20307866667d2c023b,
  0x092f2f203233320930786538093131313031303030096c656e0931093309330934023c,
  0x097b307830302c20307830342c20307830352c20307830362c20307830382c20307830392c20307830612c20307830632c20307830642c20307830652c20307830662c20307866662c20307866662c20307866662c20307866662c20307866667d2c023d,
  0x092f2f203233330930786539093131313031303031096c656e0932093309330934023e,
  0x097b307830302c20307830312c20307830342c20307830352c20307830362c20307830382c20307830392c20307830612c20307830632c20307830642c20307830652c20307830662c20307866662c20307866662c20307866662c20307866667d2c023f,
  0x092f2f203233340930786561093131313031303130096c656e09330933093309340240,
  0x097b307830302c20307830312c20307830322c20307830342c20307830352c20307830362c20307830382c20307830392c20307830612c20307830632c20307830642c20307830652c20307830662c20307866662c20307866662c20307866667d2c0241,
  0x092f2f203233350930786562093131313031303131096c656e09340933093309340242,
  0x097b307830302c20307830312c20307830322c20307830332c20307830342c20307830352c20307830362c20307830382c20307830392c20307830612c20307830632c20307830642c20307830652c20307830662c20307866662c20307866667d2c0243,
  0x092f2f203233360930786563093131313031313030096c656e09310934093309340244,
  0x097b307830302c20307830342c20307830352c20307830362c20307830372c20307830382c20307830392c20307830612c20307830632c20307830642c20307830652c20307830662c20307866662c20307866662c20307866662c20307866667d2c0245,
  0x092f2f203233370930786564093131313031313031096c656e09320934093309340246,
  0x097b307830302c20307830312c20307830342c20307830352c20307830362c20307830372c20307830382c20307830392c20307830612c20307830632c20307830642c20307830652c20307830662c20307866662c20307866662c20307866667d2c0247,
  0x092f2f203233380930786565093131313031313130096c656e09330934093309340248,
  0x097b307830302c20307830312c20307830322c20307830342c20307830352c20307830362c20307830372c20307830382c20307830392c20307830612c20307830632c20307830642c20307830652c20307830662c20307866662c20307866667d2c0249,
  0x092f2f203233390930786566093131313031313131096c656e0934093409330934024a,
  0x097b307830302c20307830312c20307830322c20307830332c20307830342c20307830352c20307830362c20307830372c20307830382c20307830392c20307830612c20307830632c20307830642c20307830652c20307830662c20307866667d2c024b,
  0x092f2f203234300930786630093131313130303030096c656e0931093109340934024c,
  0x097b307830302c20307830342c20307830382c20307830392c20307830612c20307830622c20307830632c20307830642c20307830652c20307830662c20307866662c20307866662c20307866662c20307866662c20307866662c20307866667d2c024d,
  0x092f2f203234310930786631093131313130303031096c656e0932093109340934024e,
  0x097b307830302c20307830312c20307830342c20307830382c20307830392c20307830612c20307830622c20307830632c20307830642c20307830652c20307830662c20307866662c20307866662c20307866662c20307866662c20307866667d2c024f,
  0x092f2f203234320930786632093131313130303130096c656e09330931093409340250,
  0x097b307830302c20307830312c20307830322c20307830342c20307830382c20307830392c20307830612c20307830622c20307830632c20307830642c20307830652c20307830662c20307866662c20307866662c20307866662c20307866667d2c0251,
  0x092f2f203234330930786633093131313130303131096c656e09340931093409340252,
  0x097b307830302c20307830312c20307830322c20307830332c20307830342c20307830382c20307830392c20307830612c20307830622c20307830632c20307830642c20307830652c20307830662c20307866662c20307866662c20307866667d2c0253,
  0x092f2f203234340930786634093131313130313030096c656e09310932093409340254,
  0x097b307830302c20307830342c20307830352c20307830382c20307830392c20307830612c20307830622c20307830632c20307830642c20307830652c20307830662c20307866662c20307866662c20307866662c20307866662c20307866667d2c0255,
  0x092f2f203234350930786635093131313130313031096c656e09320932093409340256,
  0x097b307830302c20307830312c20307830342c20307830352c20307830382c20307830392c20307830612c20307830622c20307830632c20307830642c20307830652c20307830662c20307866662c20307866662c20307866662c20307866667d2c0257,
  0x092f2f203234360930786636093131313130313130096c656e09330932093409340258,
  0x097b307830302c20307830312c20307830322c20307830342c20307830352c20307830382c20307830392c20307830612c20307830622c20307830632c20307830642c20307830652c20307830662c20307866662c20307866662c20307866667d2c0259,
  0x092f2f203234370930786637093131313130313131096c656e0934093209340934025a,
  0x097b307830302c20307830312c20307830322c20307830332c20307830342c20307830352c20307830382c20307830392c20307830612c20307830622c20307830632c20307830642c20307830652c20307830662c20307866662c20307866667d2c025b,
  0x092f2f203234380930786638093131313131303030096c656e0931093309340934025c,
  0x097b307830302c20307830342c20307830352c20307830362c20307830382c20307830392c20307830612c20307830622c20307830632c20307830642c20307830652c20307830662c20307866662c20307866662c20307866662c20307866667d2c025d,
  0x092f2f203234390930786639093131313131303031096c656e0932093309340934025e,
  0x097b307830302c20307830312c20307830342c20307830352c20307830362c20307830382c20307830392c20307830612c20307830622c20307830632c20307830642c20307830652c20307830662c20307866662c20307866662c20307866667d2c025f,
  0x092f2f203235300930786661093131313131303130096c656e09330933093409340260,
  0x097b307830302c20307830312c20307830322c20307830342c20307830352c20307830362c20307830382c20307830392c20307830612c20307830622c20307830632c20307830642c20307830652c20307830662c20307866662c20307866667d2c0261,
  0x092f2f203235310930786662093131313131303131096c656e09340933093409340262,
  0x097b307830302c20307830312c20307830322c20307830332c20307830342c20307830352c20307830362c20307830382c20307830392c20307830612c20307830622c20307830632c20307830642c20307830652c20307830662c20307866667d2c0263,
  0x092f2f203235320930786663093131313131313030096c656e09310934093409340264,
  0x097b307830302c20307830342c20307830352c20307830362c20307830372c20307830382c20307830392c20307830612c20307830622c20307830632c20307830642c20307830652c20307830662c20307866662c20307866662c20307866667d2c0265,
  0x092f2f203235330930786664093131313131313031096c656e09320934093409340266,
  0x097b307830302c20307830312c20307830342c20307830352c20307830362c20307830372c20307830382c20307830392c20307830612c20307830622c20307830632c20307830642c20307830652c20307830662c20307866662c20307866667d2c0267,
  0x092f2f203235340930786665093131313131313130096c656e09330934093409340268,
  0x097b307830302c20307830312c20307830322c20307830342c20307830352c20307830362c20307830372c20307830382c20307830392c20307830612c20307830622c20307830632c20307830642c20307830652c20307830662c20307866667d2c0269,
  0x092f2f203235350930786666093131313131313131096c656e0934093409340934026a,
  0x097b307830302c20307830312c20307830322c20307830332c20307830342c20307830352c20307830362c20307830372c20307830382c20307830392c20307830612c20307830622c20307830632c20307830642c20307830652c20307830667d2c026b,
  0x7d026c,
  0x026d,
  0x766172204465636f646553687566666c655461626c65202a5b3235365d5b31365d75696e7438203d20265b3235365d5b31365d75696e74387b026e,
  0x092f2f20300930783030093030303030303030096c656e0931093109310931026f,
  0x097b307830302c20307866662c20307866662c20307866662c20307830312c20307866662c20307866662c20307866662c20307830322c20307866662c20307866662c20307866662c20307830332c20307866662c20307866662c20307866667d2c0270,
  0x092f2f20310930783031093030303030303031096c656e09320931093109310271,
  0x097b307830302c20307830312c20307866662c20307866662c20307830322c20307866662c20307866662c20307866662c20307830332c20307866662c20307866662c20307866662c20307830342c20307866662c20307866662c20307866667d2c0272,
  0x092f2f20320930783032093030303030303130096c656e09330931093109310273,
  0x097b307830302c20307830312c20307830322c20307866662c20307830332c20307866662c20307866662c20307866662c20307830342c20307866662c20307866662c20307866662c20307830352c20307866662c20307866662c20307866667d2c0274,
  0x092f2f20330930783033093030303030303131096c656e09340931093109310275,
  0x097b307830302c20307830312c20307830322c20307830332c20307830342c20307866662c20307866662c20307866662c20307830352c20307866662c20307866662c20307866662c20307830362c20307866662c20307866662c20307866667d2c0276,
  0x092f2f20340930783034093030303030313030096c656e09310932093109310277,
  0x097b307830302c20307866662c20307866662c20307866662c20307830312c20307830322c20307866662c20307866662c20307830332c20307866662c20307866662c20307866662c20307830342c20307866662c20307866662c20307866667d2c0278,
  0x092f2f20350930783035093030303030313031096c656e09320932093109310279,
  0x097b307830302c20307830312c20307866662c20307866662c20307830322c20307830332c20307866662c20307866662c20307830342c20307866662c20307866662c20307866662c20307830352c20307866662c20307866662c20307866667d2c027a,
  0x092f2f20360930783036093030303030313130096c656e0933093209310931027b,
  0x097b307830302c20307830312c20307830322c20307866662c20307830332c20307830342c20307866662c20307866662c20307830352c20307866662c20307866662c20307866662c20307830362c20307866662c20307866662c20307866667d2c027c,
  0x092f2f20370930783037093030303030313131096c656e0934093209310931027d,
  0x097b307830302c20307830312c20307830322c20307830332c20307830342c20307830352c20307866662c20307866662c20307830362c20307866662c20307866662c20307866662c20307830372c20307866662c20307866662c20307866667d2c027e,
  0x092f2f20380930783038093030303031303030096c656e0931093309310931027f,
  0x097b307830302c20307866662c20307866662c20307866662c20307830312c20307830322c20307830332c20307866662c20307830342c20307866662c20307866662c20307866662c20307830352c20307866662c20307866662c20307866667d2c0280]

/-- `/repo/pkg/shared/tables.go:641-768`. -/
def tablesGo5 : List Nat := [
  0x092f2f20390930783039093030303031303031096c656e09320933093109310281,
  0x097b307830302c20307830312c20307866662c20307866662c20307830322c20307830332c20307830342c20307866662c20307830352c20307866662c20307866662c20307866662c20307830362c20307866662c20307866662c20307866667d2c0282,
  0x092f2f2031300930783061093030303031303130096c656e09330933093109310283,
  0x097b307830302c20307830312c20307830322c20307866662c20307830332c20307830342c20307830352c20307866662c20307830362c20307866662c20307866662c20307866662c20307830372c20307866662c20307866662c20307866667d2c0284,
  0x092f2f2031310930783062093030303031303131096c656e09340933093109310285,
  0x097b307830302c20307830312c20307830322c20307830332c20307830342c20307830352c20307830362c20307866662c20307830372c20307866662c20307866662c20307866662c20307830382c20307866662c20307866662c20307866667d2c0286,
  0x092f2f2031320930783063093030303031313030096c656e09310934093109310287,
  0x097b307830302c20307866662c20307866662c20307866662c20307830312c20307830322c20307830332c20307830342c20307830352c20307866662c20307866662c20307866662c20307830362c20307866662c20307866662c20307866667d2c0288,
  0x092f2f2031330930783064093030303031313031096c656e09320934093109310289,
  0x097b307830302c20307830312c20307866662c20307866662c20307830322c20307830332c20307830342c20307830352c20307830362c20307866662c20307866662c20307866662c20307830372c20307866662c20307866662c20307866667d2c028a,
  0x092f2f2031340930783065093030303031313130096c656e0933093409310931028b,
  0x097b307830302c20307830312c20307830322c20307866662c20307830332c20307830342c20307830352c20307830362c20307830372c20307866662c20307866662c20307866662c20307830382c20307866662c20307866662c20307866667d2c028c,
  0x092f2f2031350930783066093030303031313131096c656e0934093409310931028d,
  0x097b307830302c20307830312c20307830322c20307830332c20307830342c20307830352c20307830362c20307830372c20307830382c20307866662c20307866662c20307866662c20307830392c20307866662c20307866662c20307866667d2c028e,
  0x092f2f2031360930783130093030303130303030096c656e0931093109320931028f,
  0x097b307830302c20307866662c20307866662c20307866662c20307830312c20307866662c20307866662c20307866662c20307830322c20307830332c20307866662c20307866662c20307830342c20307866662c20307866662c20307866667d2c0290,
  0x092f2f2031370930783131093030303130303031096c656e09320931093209310291,
  0x097b307830302c20307830312c20307866662c20307866662c20307830322c20307866662c20307866662c20307866662c20307830332c20307830342c20307866662c20307866662c20307830352c20307866662c20307866662c20307866667d2c0292,
  0x092f2f2031380930783132093030303130303130096c656e09330931093209310293,
  0x097b307830302c20307830312c20307830322c20307866662c20307830332c20307866662c20307866662c20307866662c20307830342c20307830352c20307866662c20307866662c20307830362c20307866662c20307866662c20307866667d2c0294,
  0x092f2f2031390930783133093030303130303131096c656e09340931093209310295,
  0x097b307830302c20307830312c20307830322c20307830332c20307830342c20307866662c20307866662c20307866662c20307830352c20307830362c20307866662c20307866662c20307830372c20307866662c20307866662c20307866667d2c0296,
  0x092f2f2032300930783134093030303130313030096c656e09310932093209310297,
  0x097b307830302c20307866662c20307866662c20307866662c20307830312c20307830322c20307866662c20307866662c20307830332c20307830342c20307866662c20307866662c20307830352c20307866662c20307866662c20307866667d2c0298,
  0x092f2f2032310930783135093030303130313031096c656e09320932093209310299,
  0x097b307830302c20307830312c20307866662c20307866662c20307830322c20307830332c20307866662c20307866662c20307830342c20307830352c20307866662c20307866662c20307830362c20307866662c20307866662c20307866667d2c029a,
  0x092f2f2032320930783136093030303130313130096c656e0933093209320931029b,
  0x097b307830302c20307830312c20307830322c20307866662c20307830332c20307830342c20307866662c20307866662c20307830352c20307830362c20307866662c20307866662c20307830372c20307866662c20307866662c20307866667d2c029c,
  0x092f2f2032330930783137093030303130313131096c656e0934093209320931029d,
  0x097b307830302c20307830312c20307830322c20307830332c20307830342c20307830352c20307866662c20307866662c20307830362c20307830372c20307866662c20307866662c20307830382c20307866662c20307866662c20307866667d2c029e,
  0x092f2f2032340930783138093030303131303030096c656e0931093309320931029f,
  0x097b307830302c20307866662c20307866662c20307866662c20307830312c20307830322c20307830332c20307866662c20307830342c20307830352c20307866662c20307866662c20307830362c20307866662c20307866662c20307866667d2c02a0,
  0x092f2f2032350930783139093030303131303031096c656e093209330932093102a1,
  0x097b307830302c20307830312c20307866662c20307866662c20307830322c20307830332c20307830342c20307866662c20307830352c20307830362c20307866662c20307866662c20307830372c20307866662c20307866662c20307866667d2c02a2,
  0x092f2f2032360930783161093030303131303130096c656e093309330932093102a3,
  0x097b307830302c20307830312c20307830322c20307866662c20307830332c20307830342c20307830352c20307866662c20307830362c20307830372c20307866662c20307866662c20307830382c20307866662c20307866662c20307866667d2c02a4,
  0x092f2f2032370930783162093030303131303131096c656e093409330932093102a5,
  0x097b307830302c20307830312c20307830322c20307830332c20307830342c20307830352c20307830362c20307866662c20307830372c20307830382c20307866662c20307866662c20307830392c20307866662c20307866662c20307866667d2c02a6,
  0x092f2f2032380930783163093030303131313030096c656e093109340932093102a7,
  0x097b307830302c20307866662c20307866662c20307866662c20307830312c20307830322c20307830332c20307830342c20307830352c20307830362c20307866662c20307866662c20307830372c20307866662c20307866662c20307866667d2c02a8,
  0x092f2f2032390930783164093030303131313031096c656e093209340932093102a9,
  0x097b307830302c20307830312c20307866662c20307866662c20307830322c20307830332c20307830342c20307830352c20307830362c20307830372c20307866662c20307866662c20307830382c20307866662c20307866662c20307866667d2c02aa,
  0x092f2f2033300930783165093030303131313130096c656e093309340932093102ab,
  0x097b307830302c20307830312c20307830322c20307866662c20307830332c20307830342c20307830352c20307830362c20307830372c20307830382c20307866662c20307866662c20307830392c20307866662c20307866662c20307866667d2c02ac,
  0x092f2f2033310930783166093030303131313131096c656e093409340932093102ad,
  0x097b307830302c20307830312c20307830322c20307830332c20307830342c20307830352c20307830362c20307830372c20307830382c20307830392c20307866662c20307866662c20307830612c20307866662c20307866662c20307866667d2c02ae,
  0x092f2f2033320930783230093030313030303030096c656e093109310933093102af,
  0x097b307830302c20307866662c20307866662c20307866662c20307830312c20307866662c20307866662c20307866662c20307830322c20307830332c20307830342c20307866662c20307830352c20307866662c20307866662c20307866667d2c02b0,
  0x092f2f2033330930783231093030313030303031096c656e093209310933093102b1,
  0x097b307830302c20307830312c20307866662c20307866662c20307830322c20307866662c20307866662c20307866662c20307830332c20307830342c20307830352c20307866662c20307830362c20307866662c20307866662c20307866667d2c02b2,
  0x092f2f2033340930783232093030313030303130096c656e093309310933093102b3,
  0x097b307830302c20307830312c20307830322c20307866662c20307830332c20307866662c20307866662c20307866662c20307830342c20307830352c20307830362c20307866662c20307830372c20307866662c20307866662c20307866667d2c02b4,
  0x092f2f2033350930783233093030313030303131096c656e093409310933093102b5,
  0x097b307830302c20307830312c20307830322c20307830332c20307830342c20307866662c20307866662c20307866662c20307830352c20307830362c20307830372c20307866662c20307830382c20307866662c20307866662c20307866667d2c02b6,
  0x092f2f2033360930783234093030313030313030096c656e093109320933093102b7,
  0x097b307830302c20307866662c20307866662c20307866662c20307830312c20307830322c20307866662c20307866662c20307830332c20307830342c20307830352c20307866662c20307830362c20307866662c20307866662c20307866667d2c02b8,
  0x092f2f2033370930783235093030313030313031096c656e093209320933093102b9,
  0x097b307830302c20307830312c20307866662c20307866662c20307830322c20307830332c20307866662c20307866662c20307830342c20307830352c20307830362c20307866662c20307830372c20307866662c20307866662c20307866667d2c02ba,
  0x092f2f2033380930783236093030313030313130096c656e093309320933093102bb,
  0x097b307830302c20307830312c20307830322c20307866662c20307830332c20307830342c20307866662c20307866662c20307830352c20307830362c20307830372c20307866662c20307830382c20307866662c20307866662c20307866667d2c02bc,
  0x092f2f2033390930783237093030313030313131096c656e093409320933093102bd,
  0x097b307830302c20307830312c20307830322c20307830332c20307830342c20307830352c20307866662c20307866662c20307830362c20307830372c20307830382c20307866662c20307830392c20307866662c20307866662c20307866667d2c02be,
  0x092f2f2034300930783238093030313031303030096c656e093109330933093102bf,
  0x097b307830302c20307866662c20307866662c20307866662c20307830312c20307830322c20307830332c20307866662c20307830342c20307830352c20307830362c20307866662c20307830372c20307866662c20307866662c20307866667d2c02c0,
  0x092f2f2034310930783239093030313031303031096c656e093209330933093102c1,
  0x097b307830302c20307830312c20307866662c20307866662c20307830322c20307830332c20307830342c20307866662c20307830352c20307830362c20307830372c20307866662c20307830382c20307866662c20307866662c20307866667d2c02c2,
  0x092f2f2034320930783261093030313031303130096c656e093309330933093102c3,
  0x097b307830302c20307830312c20307830322c20307866662c20307830332c20307830342c20307830352c20307866662c20307830362c20307830372c20307830382c20307866662c20307830392c20307866662c20307866662c20307866667d2c02c4,
  0x092f2f2034330930783262093030313031303131096c656e093409330933093102c5,
  0x097b307830302c20307830312c20307830322c20307830332c20307830342c20307830352c20307830362c20307866662c20307830372c20307830382c20307830392c20307866662c20307830612c20307866662c20307866662c20307866667d2c02c6,
  0x092f2f2034340930783263093030313031313030096c656e093109340933093102c7,
  0x097b307830302c20307866662c20307866662c20307866662c20307830312c20307830322c20307830332c20307830342c20307830352c20307830362c20307830372c20307866662c20307830382c20307866662c20307866662c20307866667d2c02c8,
  0x092f2f2034350930783264093030313031313031096c656e093209340933093102c9,
  0x097b307830302c20307830312c20307866662c20307866662c20307830322c20307830332c20307830342c20307830352c20307830362c20307830372c20307830382c20307866662c20307830392c20307866662c20307866662c20307866667d2c02ca,
  0x092f2f2034360930783265093030313031313130096c656e093309340933093102cb,
  0x097b307830302c20307830312c20307830322c20307866662c20307830332c20307830342c20307830352c20307830362c20307830372c20307830382c20307830392c20307866662c20307830612c20307866662c20307866662c20307866667d2c02cc,
  0x092f2f2034370930783266093030313031313131096c656e093409340933093102cd,
  0x097b307830302c20307830312c20307830322c20307830332c20307830342c20307830352c20307830362c20307830372c20307830382c20307830392c20307830612c20307866662c20307830622c20307866662c20307866662c20307866667d2c02ce,
  0x092f2f2034380930783330093030313130303030096c656e093109310934093102cf,
  0x097b307830302c20307866662c20307866662c20307866662c20307830312c20307866662c20307866662c20307866662c20307830322c20307830332c20307830342c20307830352c20307830362c20307866662c20307866662c20307866667d2c02d0,
  0x092f2f2034390930783331093030313130303031096c656e093209310934093102d1,
  0x097b307830302c20307830312c20307866662c20307866662c20307830322c20307866662c20307866662c20307866662c20307830332c20307830342c20307830352c20307830362c20307830372c20307866662c20307866662c20307866667d2c02d2,
  0x092f2f2035300930783332093030313130303130096c656e093309310934093102d3,
  0x097b307830302c20307830312c20307830322c20307866662c20307830332c20307866662c20307866662c20307866662c20307830342c20307830352c20307830362c20307830372c20307830382c20307866662c20307866662c20307866667d2c02d4,
  0x092f2f2035310930783333093030313130303131096c656e093409310934093102d5,
  0x097b307830302c20307830312c20307830322c20307830332c20307830342c20307866662c20307866662c20307866662c20307830352c20307830362c20307830372c20307830382c20307830392c20307866662c20307866662c20307866667d2c02d6,
  0x092f2f2035320930783334093030313130313030096c656e093109320934093102d7,
  0x097b307830302c20307866662c20307866662c20307866662c20307830312c20307830322c20307866662c20307866662c20307830332c20307830342c20307830352c20307830362c20307830372c20307866662c20307866662c20307866667d2c02d8,
  0x092f2f2035330930783335093030313130313031096c656e093209320934093102d9,
  0x097b307830302c20307830312c20307866662c20307866662c20307830322c20307830332c20307866662c20307866662c20307830342c20307830352c20307830362c20307830372c20307830382c20307866662c20307866662c20307866667d2c02da,
  0x092f2f2035340930783336093030313130313130096c656e093309320934093102db,
  0x097b307830302c20307830312c20307830322c20307866662c20307830332c20307830342c20307866662c20307866662c20307830352c20307830362c20307830372c20307830382c20307830392c20307866662c20307866662c20307866667d2c02dc,
  0x092f2f2035350930783337093030313130313131096c656e093409320934093102dd,
  0x097b307830302c20307830312c20307830322c20307830332c20307830342c20307830352c20307866662c20307866662c20307830362c20307830372c20307830382c20307830392c20307830612c20307866662c20307866662c20307866667d2c02de,
  0x092f2f2035360930783338093030313131303030096c656e093109330934093102df,
  0x097b307830302c20307866662c20307866662c20307866662c20307830312c20307830322c20307830332c20307866662c20307830342c20307830352c20307830362c20307830372c20307830382c20307866662c20307866662c20307866667d2c02e0,
  0x092f2f2035370930783339093030313131303031096c656e093209330934093102e1,
  0x097b307830302c20307830312c20307866662c20307866662c20307830322c20307830332c20307830342c20307866662c20307830352c20307830362c20307830372c20307830382c20307830392c20307866662c20307866662c20307866667d2c02e2,
  0x092f2f2035380930783361093030313131303130096c656e093309330934093102e3,
  0x097b307830302c20307830312c20307830322c20307866662c20307830332c20307830342c20307830352c20307866662c20307830362c20307830372c20307830382c20307830392c20307830612c20307866662c20307866662c20307866667d2c02e4,
  0x092f2f2035390930783362093030313131303131096c656e093409330934093102e5,
  0x097b307830302c20307830312c20307830322c20307830332c20307830342c20307830352c20307830362c20307866662c20307830372c20307830382c20307830392c20307830612c20307830622c20307866662c20307866662c20307866667d2c02e6,
  0x092f2f2036300930783363093030313131313030096c656e093109340934093102e7,
  0x097b307830302c20307866662c20307866662c20307866662c20307830312c20307830322c20307830332c20307830342c20307830352c20307830362c20307830372c20307830382c20307830392c20307866662c20307866662c20307866667d2c02e8,
  0x092f2f2036310930783364093030313131313031096c656e093209340934093102e9,
  0x097b307830302c20307830312c20307866662c20307866662c20307830322c20307830332c20307830342c20307830352c20307830362c20307830372c20307830382c20307830392c20307830612c20307866662c20307866662c20307866667d2c02ea,
  0x092f2f2036320930783365093030313131313130096c656e093309340934093102eb,
  0x097b307830302c20307830312c20307830322c20307866662c20307830332c20307830342c20307830352c20307830362c20307830372c20307830382c20307830392c20307830612c20307830622c20307866662c20307866662c20307866667d2c02ec,
  0x092f2f2036330930783366093030313131313131096c656e093409340934093102ed,
  0x097b307830302c20307830312c20307830322c20307830332c20307830342c20307830352c20307830362c20307830372c20307830382c20307830392c20307830612c20307830622c20307830632c20307866662c20307866662c20307866667d2c02ee,
  0x092f2f2036340930783430093031303030303030096c656e093109310931093202ef,
  0x097b307830302c20307866662c20307866662c20307866662c20307830312c20307866662c20307866662c20307866662c20307830322c20307866662c20307866662c20307866662c20307830332c20307830342c20307866662c20307866667d2c02f0,
  0x092f2f2036350930783431093031303030303031096c656e093209310931093202f1,
  0x097b307830302c20307830312c20307866662c20307866662c20307830322c20307866662c20307866662c20307866662c20307830332c20307866662c20307866662c20307866662c20307830342c20307830352c20307866662c20307866667d2c02f2,
  0x092f2f2036360930783432093031303030303130096c656e093309310931093202f3,
  0x097b307830302c20307830312c20307830322c20307866662c20307830332c20307866662c20307866662c20307866662c20307830342c20307866662c20307866662c20307866662c20307830352c20307830362c20307866662c20307866667d2c02f4,
  0x092f2f2036370930783433093031303030303131096c656e093409310931093202f5,
  0x097b307830302c20307830312c20307830322c20307830332c20307830342c20307866662c20307866662c20307866662c20307830352c20307866662c20307866662c20307866662c20307830362c20307830372c20307866662c20307866667d2c02f6,
  0x092f2f2036380930783434093031303030313030096c656e093109320931093202f7,
  0x097b307830302c20307866662c20307866662c20307866662c20307830312c20307830322c20307866662c20307866662c20307830332c20307866662c20307866662c20307866662c20307830342c20307830352c20307866662c20307866667d2c02f8,
  0x092f2f2036390930783435093031303030313031096c656e093209320931093202f9,
  0x097b307830302c20307830312c20307866662c20307866662c20307830322c20307830332c20307866662c20307866662c20307830342c20307866662c20307866662c20307866662c20307830352c20307830362c20307866662c20307866667d2c02fa,
  0x092f2f2037300930783436093031303030313130096c656e093309320931093202fb,
  0x097b307830302c20307830312c20307830322c20307866662c20307830332c20307830342c20307866662c20307866662c20307830352c20307866662c20307866662c20307866662c20307830362c20307830372c20307866662c20307866667d2c02fc,
  0x092f2f2037310930783437093031303030313131096c656e093409320931093202fd,
  0x097b307830302c20307830312c20307830322c20307830332c20307830342c20307830352c20307866662c20307866662c20307830362c20307866662c20307866662c20307866662c20307830372c20307830382c20307866662c20307866667d2c02fe,
  0x092f2f2037320930783438093031303031303030096c656e093109330931093202ff,
  0x097b307830302c20307866662c20307866662c20307866662c20307830312c20307830322c20307830332c20307866662c20307830342c20307866662c20307866662c20307866662c20307830352c20307830362c20307866662c20307866667d2c0300]

/-- `/repo/pkg/shared/tables.go:769-896`. -/
def tablesGo6 : List Nat := [
  0x092f2f2037330930783439093031303031303031096c656e09320933093109320301,
  0x097b307830302c20307830312c20307866662c20307866662c20307830322c20307830332c20307830342c20307866662c20307830352c20307866662c20307866662c20307866662c20307830362c20307830372c20307866662c20307866667d2c0302,
  0x092f2f2037340930783461093031303031303130096c656e09330933093109320303,
  0x097b307830302c20307830312c20307830322c20307866662c20307830332c20307830342c20307830352c20307866662c20307830362c20307866662c20307866662c20307866662c20307830372c20307830382c20307866662c20307866667d2c0304,
  0x092f2f2037350930783462093031303031303131096c656e09340933093109320305,
  0x097b307830302c20307830312c20307830322c20307830332c20307830342c20307830352c20307830362c20307866662c20307830372c20307866662c20307866662c20307866662c20307830382c20307830392c20307866662c20307866667d2c0306,
  0x092f2f2037360930783463093031303031313030096c656e09310934093109320307,
  0x097b307830302c20307866662c20307866662c20307866662c20307830312c20307830322c20307830332c20307830342c20307830352c20307866662c20307866662c20307866662c20307830362c20307830372c20307866662c20307866667d2c0308,
  0x092f2f2037370930783464093031303031313031096c656e09320934093109320309,
  0x097b307830302c20307830312c20307866662c20307866662c20307830322c20307830332c20307830342c20307830352c20307830362c20307866662c20307866662c20307866662c20307830372c20307830382c20307866662c20307866667d2c030a,
  0x092f2f2037380930783465093031303031313130096c656e0933093409310932030b,
  0x097b307830302c20307830312c20307830322c20307866662c20307830332c20307830342c20307830352c20307830362c20307830372c20307866662c20307866662c20307866662c20307830382c20307830392c20307866662c20307866667d2c030c,
  0x092f2f2037390930783466093031303031313131096c656e0934093409310932030d,
  0x097b307830302c20307830312c20307830322c20307830332c20307830342c20307830352c20307830362c20307830372c20307830382c20307866662c20307866662c20307866662c20307830392c20307830612c20307866662c20307866667d2c030e,
  0x092f2f2038300930783530093031303130303030096c656e0931093109320932030f,
  0x097b307830302c20307866662c20307866662c20307866662c20307830312c20307866662c20307866662c20307866662c20307830322c20307830332c20307866662c20307866662c20307830342c20307830352c20307866662c20307866667d2c0310,
  0x092f2f2038310930783531093031303130303031096c656e09320931093209320311,
  0x097b307830302c20307830312c20307866662c20307866662c20307830322c20307866662c20307866662c20307866662c20307830332c20307830342c20307866662c20307866662c20307830352c20307830362c20307866662c20307866667d2c0312,
  0x092f2f2038320930783532093031303130303130096c656e09330931093209320313,
  0x097b307830302c20307830312c20307830322c20307866662c20307830332c20307866662c20307866662c20307866662c20307830342c20307830352c20307866662c20307866662c20307830362c20307830372c20307866662c20307866667d2c0314,
  0x092f2f2038330930783533093031303130303131096c656e09340931093209320315,
  0x097b307830302c20307830312c20307830322c20307830332c20307830342c20307866662c20307866662c20307866662c20307830352c20307830362c20307866662c20307866662c20307830372c20307830382c20307866662c20307866667d2c0316,
  0x092f2f2038340930783534093031303130313030096c656e09310932093209320317,
  0x097b307830302c20307866662c20307866662c20307866662c20307830312c20307830322c20307866662c20307866662c20307830332c20307830342c20307866662c20307866662c20307830352c20307830362c20307866662c20307866667d2c0318,
  0x092f2f2038350930783535093031303130313031096c656e09320932093209320319,
  0x097b307830302c20307830312c20307866662c20307866662c20307830322c20307830332c20307866662c20307866662c20307830342c20307830352c20307866662c20307866662c20307830362c20307830372c20307866662c20307866667d2c031a,
  0x092f2f2038360930783536093031303130313130096c656e0933093209320932031b,
  0x097b307830302c20307830312c20307830322c20307866662c20307830332c20307830342c20307866662c20307866662c20307830352c20307830362c20307866662c20307866662c20307830372c20307830382c20307866662c20307866667d2c031c,
  0x092f2f2038370930783537093031303130313131096c656e0934093209320932031d,
  0x097b307830302c20307830312c20307830322c20307830332c20307830342c20307830352c20307866662c20307866662c20307830362c20307830372c20307866662c20307866662c20307830382c20307830392c20307866662c20307866667d2c031e,
  0x092f2f2038380930783538093031303131303030096c656e0931093309320932031f,
  0x097b307830302c20307866662c20307866662c20307866662c20307830312c20307830322c20307830332c20307866662c20307830342c20307830352c20307866662c20307866662c20307830362c20307830372c20307866662c20307866667d2c0320,
  0x092f2f2038390930783539093031303131303031096c656e09320933093209320321,
  0x097b307830302c20307830312c20307866662c20307866662c20307830322c20307830332c20307830342c20307866662c20307830352c20307830362c20307866662c20307866662c20307830372c20307830382c20307866662c20307866667d2c0322,
  0x092f2f2039300930783561093031303131303130096c656e09330933093209320323,
  0x097b307830302c20307830312c20307830322c20307866662c20307830332c20307830342c20307830352c20307866662c20307830362c20307830372c20307866662c20307866662c20307830382c20307830392c20307866662c20307866667d2c0324,
  0x092f2f2039310930783562093031303131303131096c656e09340933093209320325,
  0x097b307830302c20307830312c20307830322c20307830332c20307830342c20307830352c20307830362c20307866662c20307830372c20307830382c20307866662c20307866662c20307830392c20307830612c20307866662c20307866667d2c0326,
  0x092f2f2039320930783563093031303131313030096c656e09310934093209320327,
  0x097b307830302c20307866662c20307866662c20307866662c20307830312c20307830322c20307830332c20307830342c20307830352c20307830362c20307866662c20307866662c20307830372c20307830382c20307866662c20307866667d2c0328,
  0x092f2f2039330930783564093031303131313031096c656e09320934093209320329,
  0x097b307830302c20307830312c20307866662c20307866662c20307830322c20307830332c20307830342c20307830352c20307830362c20307830372c20307866662c20307866662c20307830382c20307830392c20307866662c20307866667d2c032a,
  0x092f2f2039340930783565093031303131313130096c656e0933093409320932032b,
  0x097b307830302c20307830312c20307830322c20307866662c20307830332c20307830342c20307830352c20307830362c20307830372c20307830382c20307866662c20307866662c20307830392c20307830612c20307866662c20307866667d2c032c,
  0x092f2f2039350930783566093031303131313131096c656e0934093409320932032d,
  0x097b307830302c20307830312c20307830322c20307830332c20307830342c20307830352c20307830362c20307830372c20307830382c20307830392c20307866662c20307866662c20307830612c20307830622c20307866662c20307866667d2c032e,
  0x092f2f2039360930783630093031313030303030096c656e0931093109330932032f,
  0x097b307830302c20307866662c20307866662c20307866662c20307830312c20307866662c20307866662c20307866662c20307830322c20307830332c20307830342c20307866662c20307830352c20307830362c20307866662c20307866667d2c0330,
  0x092f2f2039370930783631093031313030303031096c656e09320931093309320331,
  0x097b307830302c20307830312c20307866662c20307866662c20307830322c20307866662c20307866662c20307866662c20307830332c20307830342c20307830352c20307866662c20307830362c20307830372c20307866662c20307866667d2c0332,
  0x092f2f2039380930783632093031313030303130096c656e09330931093309320333,
  0x097b307830302c20307830312c20307830322c20307866662c20307830332c20307866662c20307866662c20307866662c20307830342c20307830352c20307830362c20307866662c20307830372c20307830382c20307866662c20307866667d2c0334,
  0x092f2f2039390930783633093031313030303131096c656e09340931093309320335,
  0x097b307830302c20307830312c20307830322c20307830332c20307830342c20307866662c20307866662c20307866662c20307830352c20307830362c20307830372c20307866662c20307830382c20307830392c20307866662c20307866667d2c0336,
  0x092f2f203130300930783634093031313030313030096c656e09310932093309320337,
  0x097b307830302c20307866662c20307866662c20307866662c20307830312c20307830322c20307866662c20307866662c20307830332c20307830342c20307830352c20307866662c20307830362c20307830372c20307866662c20307866667d2c0338,
  0x092f2f203130310930783635093031313030313031096c656e09320932093309320339,
  0x097b307830302c20307830312c20307866662c20307866662c20307830322c20307830332c20307866662c20307866662c20307830342c20307830352c20307830362c20307866662c20307830372c20307830382c20307866662c20307866667d2c033a,
  0x092f2f203130320930783636093031313030313130096c656e0933093209330932033b,
  0x097b307830302c20307830312c20307830322c20307866662c20307830332c20307830342c20307866662c20307866662c20307830352c20307830362c20307830372c20307866662c20307830382c20307830392c20307866662c20307866667d2c033c,
  0x092f2f203130330930783637093031313030313131096c656e0934093209330932033d,
  0x097b307830302c20307830312c20307830322c20307830332c20307830342c20307830352c20307866662c20307866662c20307830362c20307830372c20307830382c20307866662c20307830392c20307830612c20307866662c20307866667d2c033e,
  0x092f2f203130340930783638093031313031303030096c656e0931093309330932033f,
  0x097b307830302c20307866662c20307866662c20307866662c20307830312c20307830322c20307830332c20307866662c20307830342c20307830352c20307830362c20307866662c20307830372c20307830382c20307866662c20307866667d2c0340,
  0x092f2f203130350930783639093031313031303031096c656e09320933093309320341,
  0x097b307830302c20307830312c20307866662c20307866662c20307830322c20307830332c20307830342c20307866662c20307830352c20307830362c20307830372c20307866662c20307830382c20307830392c20307866662c20307866667d2c0342,
  0x092f2f203130360930783661093031313031303130096c656e09330933093309320343,
  0x097b307830302c20307830312c20307830322c20307866662c20307830332c20307830342c20307830352c20307866662c20307830362c20307830372c20307830382c20307866662c20307830392c20307830612c20307866662c20307866667d2c0344,
  0x092f2f203130370930783662093031313031303131096c656e09340933093309320345,
  0x097b307830302c20307830312c20307830322c20307830332c20307830342c20307830352c20307830362c20307866662c20307830372c20307830382c20307830392c20307866662c20307830612c20307830622c20307866662c20307866667d2c0346,
  0x092f2f203130380930783663093031313031313030096c656e09310934093309320347,
  0x097b307830302c20307866662c20307866662c20307866662c20307830312c20307830322c20307830332c20307830342c20307830352c20307830362c20307830372c20307866662c20307830382c20307830392c20307866662c20307866667d2c0348,
  0x092f2f203130390930783664093031313031313031096c656e09320934093309320349,
  0x097b307830302c20307830312c20307866662c20307866662c20307830322c20307830332c20307830342c20307830352c20307830362c20307830372c20307830382c20307866662c20307830392c20307830612c20307866662c20307866667d2c034a,
  0x092f2f203131300930783665093031313031313130096c656e0933093409330932034b,
  0x097b307830302c20307830312c20307830322c20307866662c20307830332c20307830342c20307830352c20307830362c20307830372c20307830382c20307830392c20307866662c20307830612c20307830622c20307866662c20307866667d2c034c,
  0x092f2f203131310930783666093031313031313131096c656e0934093409330932034d,
  0x097b307830302c20307830312c20307830322c20307830332c20307830342c20307830352c20307830362c20307830372c20307830382c20307830392c20307830612c20307866662c20307830622c20307830632c20307866662c20307866667d2c034e,
  0x092f2f203131320930783730093031313130303030096c656e0931093109340932034f,
  0x097b307830302c20307866662c20307866662c20307866662c20307830312c20307866662c20307866662c20307866662c20307830322c20307830332c20307830342c20307830352c20307830362c20307830372c20307866662c20307866667d2c0350,
  0x092f2f203131330930783731093031313130303031096c656e09320931093409320351,
  0x097b307830302c20307830312c20307866662c20307866662c20307830322c20307866662c20307866662c20307866662c20307830332c20307830342c20307830352c20307830362c20307830372c20307830382c20307866662c20307866667d2c0352,
  0x092f2f203131340930783732093031313130303130096c656e09330931093409320353,
  0x097b307830302c20307830312c20307830322c20307866662c20307830332c20307866662c20307866662c20307866662c20307830342c20307830352c20307830362c20307830372c20307830382c20307830392c20307866662c20307866667d2c0354,
  0x092f2f203131350930783733093031313130303131096c656e09340931093409320355,
  0x097b307830302c20307830312c20307830322c20307830332c20307830342c20307866662c20307866662c20307866662c20307830352c20307830362c20307830372c20307830382c20307830392c20307830612c20307866662c20307866667d2c0356,
  0x092f2f203131360930783734093031313130313030096c656e09310932093409320357,
  0x097b307830302c20307866662c20307866662c20307866662c20307830312c20307830322c20307866662c20307866662c20307830332c20307830342c20307830352c20307830362c20307830372c20307830382c20307866662c20307866667d2c0358,
  0x092f2f203131370930783735093031313130313031096c656e09320932093409320359,
  0x097b307830302c20307830312c20307866662c20307866662c20307830322c20307830332c20307866662c20307866662c20307830342c20307830352c20307830362c20307830372c20307830382c20307830392c20307866662c20307866667d2c035a,
  0x092f2f203131380930783736093031313130313130096c656e0933093209340932035b,
  0x097b307830302c20307830312c20307830322c20307866662c20307830332c20307830342c20307866662c20307866662c20307830352c20307830362c20307830372c20307830382c20307830392c20307830612c20307866662c20307866667d2c035c,
  0x092f2f203131390930783737093031313130313131096c656e0934093209340932035d,
  0x097b307830302c20307830312c20307830322c20307830332c20307830342c20307830352c20307866662c20307866662c20307830362c20307830372c20307830382c20307830392c20307830612c20307830622c20307866662c20307866667d2c035e,
  0x092f2f203132300930783738093031313131303030096c656e0931093309340932035f,
  0x097b307830302c20307866662c20307866662c20307866662c20307830312c20307830322c20307830332c20307866662c20307830342c20307830352c20307830362c20307830372c20307830382c20307830392c20307866662c20307866667d2c0360,
  0x092f2f203132310930783739093031313131303031096c656e09320933093409320361,
  0x097b307830302c20307830312c20307866662c20307866662c20307830322c20307830332c20307830342c20307866662c20307830352c20307830362c20307830372c20307830382c20307830392c20307830612c20307866662c20307866667d2c0362,
  0x092f2f203132320930783761093031313131303130096c656e09330933093409320363,
  0x097b307830302c20307830312c20307830322c20307866662c20307830332c20307830342c20307830352c20307866662c20307830362c20307830372c20307830382c20307830392c20307830612c20307830622c20307866662c20307866667d2c0364,
  0x092f2f203132330930783762093031313131303131096c656e09340933093409320365,
  0x097b307830302c20307830312c20307830322c20307830332c20307830342c20307830352c20307830362c20307866662c20307830372c20307830382c20307830392c20307830612c20307830622c20307830632c20307866662c20307866667d2c0366,
  0x092f2f203132340930783763093031313131313030096c656e09310934093409320367,
  0x097b307830302c20307866662c20307866662c20307866662c20307830312c20307830322c20307830332c20307830342c20307830352c20307830362c20307830372c20307830382c20307830392c20307830612c20307866662c20307866667d2c0368,
  0x092f2f203132350930783764093031313131313031096c656e09320934093409320369,
  0x097b307830302c20307830312c20307866662c20307866662c20307830322c20307830332c20307830342c20307830352c20307830362c20307830372c20307830382c20307830392c20307830612c20307830622c20307866662c20307866667d2c036a,
  0x092f2f203132360930783765093031313131313130096c656e0933093409340932036b,
  0x097b307830302c20307830312c20307830322c20307866662c20307830332c20307830342c20307830352c20307830362c20307830372c20307830382c20307830392c20307830612c20307830622c20307830632c20307866662c20307866667d2c036c,
  0x092f2f203132370930783766093031313131313131096c656e0934093409340932036d,
  0x097b307830302c20307830312c20307830322c20307830332c20307830342c20307830352c20307830362c20307830372c20307830382c20307830392c20307830612c20307830622c20307830632c20307830642c20307866662c20307866667d2c036e,
  0x092f2f203132380930783830093130303030303030096c656e0931093109310933036f,
  0x097b307830302c20307866662c20307866662c20307866662c20307830312c20307866662c20307866662c20307866662c20307830322c20307866662c20307866662c20307866662c20307830332c20307830342c20307830352c20307866667d2c0370,
  0x092f2f203132390930783831093130303030303031096c656e09320931093109330371,
  0x097b307830302c20307830312c20307866662c20307866662c20307830322c20307866662c20307866662c20307866662c20307830332c20307866662c20307866662c20307866662c20307830342c20307830352c20307830362c20307866667d2c0372,
  0x092f2f203133300930783832093130303030303130096c656e09330931093109330373,
  0x097b307830302c20307830312c20307830322c20307866662c20307830332c20307866662c20307866662c20307866662c20307830342c20307866662c20307866662c20307866662c20307830352c20307830362c20307830372c20307866667d2c0374,
  0x092f2f203133310930783833093130303030303131096c656e09340931093109330375,
  0x097b307830302c20307830312c20307830322c20307830332c20307830342c20307866662c20307866662c20307866662c20307830352c20307866662c20307866662c20307866662c20307830362c20307830372c20307830382c20307866667d2c0376,
  0x092f2f203133320930783834093130303030313030096c656e09310932093109330377,
  0x097b307830302c20307866662c20307866662c20307866662c20307830312c20307830322c20307866662c20307866662c20307830332c20307866662c20307866662c20307866662c20307830342c20307830352c20307830362c20307866667d2c0378,
  0x092f2f203133330930783835093130303030313031096c656e09320932093109330379,
  0x097b307830302c20307830312c20307866662c20307866662c20307830322c20307830332c20307866662c20307866662c20307830342c20307866662c20307866662c20307866662c20307830352c20307830362c20307830372c20307866667d2c037a,
  0x092f2f203133340930783836093130303030313130096c656e0933093209310933037b,
  0x097b307830302c20307830312c20307830322c20307866662c20307830332c20307830342c20307866662c20307866662c20307830352c20307866662c20307866662c20307866662c20307830362c20307830372c20307830382c20307866667d2c037c,
  0x092f2f203133350930783837093130303030313131096c656e0934093209310933037d,
  0x097b307830302c20307830312c20307830322c20307830332c20307830342c20307830352c20307866662c20307866662c20307830362c20307866662c20307866662c20307866662c20307830372c20307830382c20307830392c20307866667d2c037e,
  0x092f2f203133360930783838093130303031303030096c656e0931093309310933037f,
  0x097b307830302c20307866662c20307866662c20307866662c20307830312c20307830322c20307830332c20307866662c20307830342c20307866662c20307866662c20307866662c20307830352c20307830362c20307830372c20307866667d2c0380]

/-- `/repo/pkg/shared/tables.go:897-1024`. -/
def tablesGo7 : List Nat := [
  0x092f2f203133370930783839093130303031303031096c656e09320933093109330381,
  0x097b307830302c20307830312c20307866662c20307866662c20307830322c20307830332c20307830342c20307866662c20307830352c20307866662c20307866662c20307866662c20307830362c20307830372c20307830382c20307866667d2c0382,
  0x092f2f203133380930783861093130303031303130096c656e09330933093109330383,
  0x097b307830302c20307830312c20307830322c20307866662c20307830332c20307830342c20307830352c20307866662c20307830362c20307866662c20307866662c20307866662c20307830372c20307830382c20307830392c20307866667d2c0384,
  0x092f2f203133390930783862093130303031303131096c656e09340933093109330385,
  0x097b307830302c20307830312c20307830322c20307830332c20307830342c20307830352c20307830362c20307866662c20307830372c20307866662c20307866662c20307866662c20307830382c20307830392c20307830612c20307866667d2c0386,
  0x092f2f203134300930783863093130303031313030096c656e09310934093109330387,
  0x097b307830302c20307866662c20307866662c20307866662c20307830312c20307830322c20307830332c20307830342c20307830352c20307866662c20307866662c20307866662c20307830362c20307830372c20307830382c20307866667d2c0388,
  0x092f2f203134310930783864093130303031313031096c656e09320934093109330389,
  0x097b307830302c20307830312c20307866662c20307866662c20307830322c20307830332c20307830342c20307830352c20307830362c20307866662c20307866662c20307866662c20307830372c20307830382c20307830392c20307866667d2c038a,
  0x092f2f203134320930783865093130303031313130096c656e0933093409310933038b,
  0x097b307830302c20307830312c20307830322c20307866662c20307830332c20307830342c20307830352c20307830362c20307830372c20307866662c20307866662c20307866662c20307830382c20307830392c20307830612c20307866667d2c038c,
  0x092f2f203134330930783866093130303031313131096c656e0934093409310933038d,
  0x097b307830302c20307830312c20307830322c20307830332c20307830342c20307830352c20307830362c20307830372c20307830382c20307866662c20307866662c20307866662c20307830392c20307830612c20307830622c20307866667d2c038e,
  0x092f2f203134340930783930093130303130303030096c656e0931093109320933038f,
  0x097b307830302c20307866662c20307866662c20307866662c20307830312c20307866662c20307866662c20307866662c20307830322c20307830332c20307866662c20307866662c20307830342c20307830352c20307830362c20307866667d2c0390,
  0x092f2f203134350930783931093130303130303031096c656e09320931093209330391,
  0x097b307830302c20307830312c20307866662c20307866662c20307830322c20307866662c20307866662c20307866662c20307830332c20307830342c20307866662c20307866662c20307830352c20307830362c20307830372c20307866667d2c0392,
  0x092f2f203134360930783932093130303130303130096c656e09330931093209330393,
  0x097b307830302c20307830312c20307830322c20307866662c20307830332c20307866662c20307866662c20307866662c20307830342c20307830352c20307866662c20307866662c20307830362c20307830372c20307830382c20307866667d2c0394,
  0x092f2f203134370930783933093130303130303131096c656e09340931093209330395,
  0x097b307830302c20307830312c20307830322c20307830332c20307830342c20307866662c20307866662c20307866662c20307830352c20307830362c20307866662c20307866662c20307830372c20307830382c20307830392c20307866667d2c0396,
  0x092f2f203134380930783934093130303130313030096c656e09310932093209330397,
  0x097b307830302c20307866662c20307866662c20307866662c20307830312c20307830322c20307866662c20307866662c20307830332c20307830342c20307866662c20307866662c20307830352c20307830362c20307830372c20307866667d2c0398,
  0x092f2f203134390930783935093130303130313031096c656e09320932093209330399,
  0x097b307830302c20307830312c20307866662c20307866662c20307830322c20307830332c20307866662c20307866662c20307830342c20307830352c20307866662c20307866662c20307830362c20307830372c20307830382c20307866667d2c039a,
  0x092f2f203135300930783936093130303130313130096c656e0933093209320933039b,
  0x097b307830302c20307830312c20307830322c20307866662c20307830332c20307830342c20307866662c20307866662c20307830352c20307830362c20307866662c20307866662c20307830372c20307830382c20307830392c20307866667d2c039c,
  0x092f2f203135310930783937093130303130313131096c656e0934093209320933039d,
  0x097b307830302c20307830312c20307830322c20307830332c20307830342c20307830352c20307866662c20307866662c20307830362c20307830372c20307866662c20307866662c20307830382c20307830392c20307830612c20307866667d2c039e,
  0x092f2f203135320930783938093130303131303030096c656e0931093309320933039f,
  0x097b307830302c20307866662c20307866662c20307866662c20307830312c20307830322c20307830332c20307866662c20307830342c20307830352c20307866662c20307866662c20307830362c20307830372c20307830382c20307866667d2c03a0,
  0x092f2f203135330930783939093130303131303031096c656e093209330932093303a1,
  0x097b307830302c20307830312c20307866662c20307866662c20307830322c20307830332c20307830342c20307866662c20307830352c20307830362c20307866662c20307866662c20307830372c20307830382c20307830392c20307866667d2c03a2,
  0x092f2f203135340930783961093130303131303130096c656e093309330932093303a3,
  0x097b307830302c20307830312c20307830322c20307866662c20307830332c20307830342c20307830352c20307866662c20307830362c20307830372c20307866662c20307866662c20307830382c20307830392c20307830612c20307866667d2c03a4,
  0x092f2f203135350930783962093130303131303131096c656e093409330932093303a5,
  0x097b307830302c20307830312c20307830322c20307830332c20307830342c20307830352c20307830362c20307866662c20307830372c20307830382c20307866662c20307866662c20307830392c20307830612c20307830622c20307866667d2c03a6,
  0x092f2f203135360930783963093130303131313030096c656e093109340932093303a7,
  0x097b307830302c20307866662c20307866662c20307866662c20307830312c20307830322c20307830332c20307830342c20307830352c20307830362c20307866662c20307866662c20307830372c20307830382c20307830392c20307866667d2c03a8,
  0x092f2f203135370930783964093130303131313031096c656e093209340932093303a9,
  0x097b307830302c20307830312c20307866662c20307866662c20307830322c20307830332c20307830342c20307830352c20307830362c20307830372c20307866662c20307866662c20307830382c20307830392c20307830612c20307866667d2c03aa,
  0x092f2f203135380930783965093130303131313130096c656e093309340932093303ab,
  0x097b307830302c20307830312c20307830322c20307866662c20307830332c20307830342c20307830352c20307830362c20307830372c20307830382c20307866662c20307866662c20307830392c20307830612c20307830622c20307866667d2c03ac,
  0x092f2f203135390930783966093130303131313131096c656e093409340932093303ad,
  0x097b307830302c20307830312c20307830322c20307830332c20307830342c20307830352c20307830362c20307830372c20307830382c20307830392c20307866662c20307866662c20307830612c20307830622c20307830632c20307866667d2c03ae,
  0x092f2f203136300930786130093130313030303030096c656e093109310933093303af,
  0x097b307830302c20307866662c20307866662c20307866662c20307830312c20307866662c20307866662c20307866662c20307830322c20307830332c20307830342c20307866662c20307830352c20307830362c20307830372c20307866667d2c03b0,
  0x092f2f203136310930786131093130313030303031096c656e093209310933093303b1,
  0x097b307830302c20307830312c20307866662c20307866662c20307830322c20307866662c20307866662c20307866662c20307830332c20307830342c20307830352c20307866662c20307830362c20307830372c20307830382c20307866667d2c03b2,
  0x092f2f203136320930786132093130313030303130096c656e093309310933093303b3,
  0x097b307830302c20307830312c20307830322c20307866662c20307830332c20307866662c20307866662c20307866662c20307830342c20307830352c20307830362c20307866662c20307830372c20307830382c20307830392c20307866667d2c03b4,
  0x092f2f203136330930786133093130313030303131096c656e093409310933093303b5,
  0x097b307830302c20307830312c20307830322c20307830332c20307830342c20307866662c20307866662c20307866662c20307830352c20307830362c20307830372c20307866662c20307830382c20307830392c20307830612c20307866667d2c03b6,
  0x092f2f203136340930786134093130313030313030096c656e093109320933093303b7,
  0x097b307830302c20307866662c20307866662c20307866662c20307830312c20307830322c20307866662c20307866662c20307830332c20307830342c20307830352c20307866662c20307830362c20307830372c20307830382c20307866667d2c03b8,
  0x092f2f203136350930786135093130313030313031096c656e093209320933093303b9,
  0x097b307830302c20307830312c20307866662c20307866662c20307830322c20307830332c20307866662c20307866662c20307830342c20307830352c20307830362c20307866662c20307830372c20307830382c20307830392c20307866667d2c03ba,
  0x092f2f203136360930786136093130313030313130096c656e093309320933093303bb,
  0x097b307830302c20307830312c20307830322c20307866662c20307830332c20307830342c20307866662c20307866662c20307830352c20307830362c20307830372c20307866662c20307830382c20307830392c20307830612c20307866667d2c03bc,
  0x092f2f203136370930786137093130313030313131096c656e093409320933093303bd,
  0x097b307830302c20307830312c20307830322c20307830332c20307830342c20307830352c20307866662c20307866662c20307830362c20307830372c20307830382c20307866662c20307830392c20307830612c20307830622c20307866667d2c03be,
  0x092f2f203136380930786138093130313031303030096c656e093109330933093303bf,
  0x097b307830302c20307866662c20307866662c20307866662c20307830312c20307830322c20307830332c20307866662c20307830342c20307830352c20307830362c20307866662c20307830372c20307830382c20307830392c20307866667d2c03c0,
  0x092f2f203136390930786139093130313031303031096c656e093209330933093303c1,
  0x097b307830302c20307830312c20307866662c20307866662c20307830322c20307830332c20307830342c20307866662c20307830352c20307830362c20307830372c20307866662c20307830382c20307830392c20307830612c20307866667d2c03c2,
  0x092f2f203137300930786161093130313031303130096c656e093309330933093303c3,
  0x097b307830302c20307830312c20307830322c20307866662c20307830332c20307830342c20307830352c20307866662c20307830362c20307830372c20307830382c20307866662c20307830392c20307830612c20307830622c20307866667d2c03c4,
  0x092f2f203137310930786162093130313031303131096c656e093409330933093303c5,
  0x097b307830302c20307830312c20307830322c20307830332c20307830342c20307830352c20307830362c20307866662c20307830372c20307830382c20307830392c20307866662c20307830612c20307830622c20307830632c20307866667d2c03c6,
  0x092f2f203137320930786163093130313031313030096c656e093109340933093303c7,
  0x097b307830302c20307866662c20307866662c20307866662c20307830312c20307830322c20307830332c20307830342c20307830352c20307830362c20307830372c20307866662c20307830382c20307830392c20307830612c20307866667d2c03c8,
  0x092f2f203137330930786164093130313031313031096c656e093209340933093303c9,
  0x097b307830302c20307830312c20307866662c20307866662c20307830322c20307830332c20307830342c20307830352c20307830362c20307830372c20307830382c20307866662c20307830392c20307830612c20307830622c20307866667d2c03ca,
  0x092f2f203137340930786165093130313031313130096c656e093309340933093303cb,
  0x097b307830302c20307830312c20307830322c20307866662c20307830332c20307830342c20307830352c20307830362c20307830372c20307830382c20307830392c20307866662c20307830612c20307830622c20307830632c20307866667d2c03cc,
  0x092f2f203137350930786166093130313031313131096c656e093409340933093303cd,
  0x097b307830302c20307830312c20307830322c20307830332c20307830342c20307830352c20307830362c20307830372c20307830382c20307830392c20307830612c20307866662c20307830622c20307830632c20307830642c20307866667d2c03ce,
  0x092f2f203137360930786230093130313130303030096c656e093109310934093303cf,
  0x097b307830302c20307866662c20307866662c20307866662c20307830312c20307866662c20307866662c20307866662c20307830322c20307830332c20307830342c20307830352c20307830362c20307830372c20307830382c20307866667d2c03d0,
  0x092f2f203137370930786231093130313130303031096c656e093209310934093303d1,
  0x097b307830302c20307830312c20307866662c20307866662c20307830322c20307866662c20307866662c20307866662c20307830332c20307830342c20307830352c20307830362c20307830372c20307830382c20307830392c20307866667d2c03d2,
  0x092f2f203137380930786232093130313130303130096c656e093309310934093303d3,
  0x097b307830302c20307830312c20307830322c20307866662c20307830332c20307866662c20307866662c20307866662c20307830342c20307830352c20307830362c20307830372c20307830382c20307830392c20307830612c20307866667d2c03d4,
  0x092f2f203137390930786233093130313130303131096c656e093409310934093303d5,
  0x097b307830302c20307830312c20307830322c20307830332c20307830342c20307866662c20307866662c20307866662c20307830352c20307830362c20307830372c20307830382c20307830392c20307830612c20307830622c20307866667d2c03d6,
  0x092f2f203138300930786234093130313130313030096c656e093109320934093303d7,
  0x097b307830302c20307866662c20307866662c20307866662c20307830312c20307830322c20307866662c20307866662c20307830332c20307830342c20307830352c20307830362c20307830372c20307830382c20307830392c20307866667d2c03d8,
  0x092f2f203138310930786235093130313130313031096c656e093209320934093303d9,
  0x097b307830302c20307830312c20307866662c20307866662c20307830322c20307830332c20307866662c20307866662c20307830342c20307830352c20307830362c20307830372c20307830382c20307830392c20307830612c20307866667d2c03da,
  0x092f2f203138320930786236093130313130313130096c656e093309320934093303db,
  0x097b307830302c20307830312c20307830322c20307866662c20307830332c20307830342c20307866662c20307866662c20307830352c20307830362c20307830372c20307830382c20307830392c20307830612c20307830622c20307866667d2c03dc,
  0x092f2f203138330930786237093130313130313131096c656e093409320934093303dd,
  0x097b307830302c20307830312c20307830322c20307830332c20307830342c20307830352c20307866662c20307866662c20307830362c20307830372c20307830382c20307830392c20307830612c20307830622c20307830632c20307866667d2c03de,
  0x092f2f203138340930786238093130313131303030096c656e093109330934093303df,
  0x097b307830302c20307866662c20307866662c20307866662c20307830312c20307830322c20307830332c20307866662c20307830342c20307830352c20307830362c20307830372c20307830382c20307830392c20307830612c20307866667d2c03e0,
  0x092f2f203138350930786239093130313131303031096c656e093209330934093303e1,
  0x097b307830302c20307830312c20307866662c20307866662c20307830322c20307830332c20307830342c20307866662c20307830352c20307830362c20307830372c20307830382c20307830392c20307830612c20307830622c20307866667d2c03e2,
  0x092f2f203138360930786261093130313131303130096c656e093309330934093303e3,
  0x097b307830302c20307830312c20307830322c20307866662c20307830332c20307830342c20307830352c20307866662c20307830362c20307830372c20307830382c20307830392c20307830612c20307830622c20307830632c20307866667d2c03e4,
  0x092f2f203138370930786262093130313131303131096c656e093409330934093303e5,
  0x097b307830302c20307830312c20307830322c20307830332c20307830342c20307830352c20307830362c20307866662c20307830372c20307830382c20307830392c20307830612c20307830622c20307830632c20307830642c20307866667d2c03e6,
  0x092f2f203138380930786263093130313131313030096c656e093109340934093303e7,
  0x097b307830302c20307866662c20307866662c20307866662c20307830312c20307830322c20307830332c20307830342c20307830352c20307830362c20307830372c20307830382c20307830392c20307830612c20307830622c20307866667d2c03e8,
  0x092f2f203138390930786264093130313131313031096c656e093209340934093303e9,
  0x097b307830302c20307830312c20307866662c20307866662c20307830322c20307830332c20307830342c20307830352c20307830362c20307830372c20307830382c20307830392c20307830612c20307830622c20307830632c20307866667d2c03ea,
  0x092f2f203139300930786265093130313131313130096c656e093309340934093303eb,
  0x097b307830302c20307830312c20307830322c20307866662c20307830332c20307830342c20307830352c20307830362c20307830372c20307830382c20307830392c20307830612c20307830622c20307830632c20307830642c20307866667d2c03ec,
  0x092f2f203139310930786266093130313131313131096c656e093409340934093303ed,
  0x097b307830302c20307830312c20307830322c20307830332c20307830342c20307830352c20307830362c20307830372c20307830382c20307830392c20307830612c20307830622c20307830632c20307830642c20307830652c20307866667d2c03ee,
  0x092f2f203139320930786330093131303030303030096c656e093109310931093403ef,
  0x097b307830302c20307866662c20307866662c20307866662c20307830312c20307866662c20307866662c20307866662c20307830322c20307866662c20307866662c20307866662c20307830332c20307830342c20307830352c20307830367d2c03f0,
  0x092f2f203139330930786331093131303030303031096c656e093209310931093403f1,
  0x097b307830302c20307830312c20307866662c20307866662c20307830322c20307866662c20307866662c20307866662c20307830332c20307866662c20307866662c20307866662c20307830342c20307830352c20307830362c20307830377d2c03f2,
  0x092f2f203139340930786332093131303030303130096c656e093309310931093403f3,
  0x097b307830302c20307830312c20307830322c20307866662c20307830332c20307866662c20307866662c20307866662c20307830342c20307866662c20307866662c20307866662c20307830352c20307830362c20307830372c20307830387d2c03f4,
  0x092f2f203139350930786333093131303030303131096c656e093409310931093403f5,
  0x097b307830302c20307830312c20307830322c20307830332c20307830342c20307866662c20307866662c20307866662c20307830352c20307866662c20307866662c20307866662c20307830362c20307830372c20307830382c20307830397d2c03f6,
  0x092f2f203139360930786334093131303030313030096c656e093109320931093403f7,
  0x097b307830302c20307866662c20307866662c20307866662c20307830312c20307830322c20307866662c20307866662c20307830332c20307866662c20307866662c20307866662c20307830342c20307830352c20307830362c20307830377d2c03f8,
  0x092f2f203139370930786335093131303030313031096c656e093209320931093403f9,
  0x097b307830302c20307830312c20307866662c20307866662c20307830322c20307830332c20307866662c20307866662c20307830342c20307866662c20307866662c20307866662c20307830352c20307830362c20307830372c20307830387d2c03fa,
  0x092f2f203139380930786336093131303030313130096c656e093309320931093403fb,
  0x097b307830302c20307830312c20307830322c20307866662c20307830332c20307830342c20307866662c20307866662c20307830352c20307866662c20307866662c20307866662c20307830362c20307830372c20307830382c20307830397d2c03fc,
  0x092f2f203139390930786337093131303030313131096c656e093409320931093403fd,
  0x097b307830302c20307830312c20307830322c20307830332c20307830342c20307830352c20307866662c20307866662c20307830362c20307866662c20307866662c20307866662c20307830372c20307830382c20307830392c20307830617d2c03fe,
  0x092f2f203230300930786338093131303031303030096c656e093109330931093403ff,
  0x097b307830302c20307866662c20307866662c20307866662c20307830312c20307830322c20307830332c20307866662c20307830342c20307866662c20307866662c20307866662c20307830352c20307830362c20307830372c20307830387d2c0400]

/-- `/repo/pkg/shared/tables.go:1025-1135`. -/
def tablesGo8 : List Nat := [
  0x092f2f203230310930786339093131303031303031096c656e09320933093109340401,
  0x097b307830302c20307830312c20307866662c20307866662c20307830322c20307830332c20307830342c20307866662c20307830352c20307866662c20307866662c20307866662c20307830362c20307830372c20307830382c20307830397d2c0402,
  0x092f2f203230320930786361093131303031303130096c656e09330933093109340403,
  0x097b307830302c20307830312c20307830322c20307866662c20307830332c20307830342c20307830352c20307866662c20307830362c20307866662c20307866662c20307866662c20307830372c20307830382c20307830392c20307830617d2c0404,
  0x092f2f203230330930786362093131303031303131096c656e09340933093109340405,
  0x097b307830302c20307830312c20307830322c20307830332c20307830342c20307830352c20307830362c20307866662c20307830372c20307866662c20307866662c20307866662c20307830382c20307830392c20307830612c20307830627d2c0406,
  0x092f2f203230340930786363093131303031313030096c656e09310934093109340407,
  0x097b307830302c20307866662c20307866662c20307866662c20307830312c20307830322c20307830332c20307830342c20307830352c20307866662c20307866662c20307866662c20307830362c20307830372c20307830382c20307830397d2c0408,
  0x092f2f203230350930786364093131303031313031096c656e09320934093109340409,
  0x097b307830302c20307830312c20307866662c20307866662c20307830322c20307830332c20307830342c20307830352c20307830362c20307866662c20307866662c20307866662c20307830372c20307830382c20307830392c20307830617d2c040a,
  0x092f2f203230360930786365093131303031313130096c656e0933093409310934040b,
  0x097b307830302c20307830312c20307830322c20307866662c20307830332c20307830342c20307830352c20307830362c20307830372c20307866662c20307866662c20307866662c20307830382c20307830392c20307830612c20307830627d2c040c,
  0x092f2f203230370930786366093131303031313131096c656e0934093409310934040d,
  0x097b307830302c20307830312c20307830322c20307830332c20307830342c20307830352c20307830362c20307830372c20307830382c20307866662c20307866662c20307866662c20307830392c20307830612c20307830622c20307830637d2c040e,
  0x092f2f203230380930786430093131303130303030096c656e0931093109320934040f,
  0x097b307830302c20307866662c20307866662c20307866662c20307830312c20307866662c20307866662c20307866662c20307830322c20307830332c20307866662c20307866662c20307830342c20307830352c20307830362c20307830377d2c0410,
  0x092f2f203230390930786431093131303130303031096c656e09320931093209340411,
  0x097b307830302c20307830312c20307866662c20307866662c20307830322c20307866662c20307866662c20307866662c20307830332c20307830342c20307866662c20307866662c20307830352c20307830362c20307830372c20307830387d2c0412,
  0x092f2f203231300930786432093131303130303130096c656e09330931093209340413,
  0x097b307830302c20307830312c20307830322c20307866662c20307830332c20307866662c20307866662c20307866662c20307830342c20307830352c20307866662c20307866662c20307830362c20307830372c20307830382c20307830397d2c0414,
  0x092f2f203231310930786433093131303130303131096c656e09340931093209340415,
  0x097b307830302c20307830312c20307830322c20307830332c20307830342c20307866662c20307866662c20307866662c20307830352c20307830362c20307866662c20307866662c20307830372c20307830382c20307830392c20307830617d2c0416,
  0x092f2f203231320930786434093131303130313030096c656e09310932093209340417,
  0x097b307830302c20307866662c20307866662c20307866662c20307830312c20307830322c20307866662c20307866662c20307830332c20307830342c20307866662c20307866662c20307830352c20307830362c20307830372c20307830387d2c0418,
  0x092f2f203231330930786435093131303130313031096c656e09320932093209340419,
  0x097b307830302c20307830312c20307866662c20307866662c20307830322c20307830332c20307866662c20307866662c20307830342c20307830352c20307866662c20307866662c20307830362c20307830372c20307830382c20307830397d2c041a,
  0x092f2f203231340930786436093131303130313130096c656e0933093209320934041b,
  0x097b307830302c20307830312c20307830322c20307866662c20307830332c20307830342c20307866662c20307866662c20307830352c20307830362c20307866662c20307866662c20307830372c20307830382c20307830392c20307830617d2c041c,
  0x092f2f203231350930786437093131303130313131096c656e0934093209320934041d,
  0x097b307830302c20307830312c20307830322c20307830332c20307830342c20307830352c20307866662c20307866662c20307830362c20307830372c20307866662c20307866662c20307830382c20307830392c20307830612c20307830627d2c041e,
  0x092f2f203231360930786438093131303131303030096c656e0931093309320934041f,
  0x097b307830302c20307866662c20307866662c20307866662c20307830312c20307830322c20307830332c20307866662c20307830342c20307830352c20307866662c20307866662c20307830362c20307830372c20307830382c20307830397d2c0420,
  0x092f2f203231370930786439093131303131303031096c656e09320933093209340421,
  0x097b307830302c20307830312c20307866662c20307866662c20307830322c20307830332c20307830342c20307866662c20307830352c20307830362c20307866662c20307866662c20307830372c20307830382c20307830392c20307830617d2c0422,
  0x092f2f203231380930786461093131303131303130096c656e09330933093209340423,
  0x097b307830302c20307830312c20307830322c20307866662c20307830332c20307830342c20307830352c20307866662c20307830362c20307830372c20307866662c20307866662c20307830382c20307830392c20307830612c20307830627d2c0424,
  0x092f2f203231390930786462093131303131303131096c656e09340933093209340425,
  0x097b307830302c20307830312c20307830322c20307830332c20307830342c20307830352c20307830362c20307866662c20307830372c20307830382c20307866662c20307866662c20307830392c20307830612c20307830622c20307830637d2c0426,
  0x092f2f203232300930786463093131303131313030096c656e09310934093209340427,
  0x097b307830302c20307866662c20307866662c20307866662c20307830312c20307830322c20307830332c20307830342c20307830352c20307830362c20307866662c20307866662c20307830372c20307830382c20307830392c20307830617d2c0428,
  0x092f2f203232310930786464093131303131313031096c656e09320934093209340429,
  0x097b307830302c20307830312c20307866662c20307866662c20307830322c20307830332c20307830342c20307830352c20307830362c20307830372c20307866662c20307866662c20307830382c20307830392c20307830612c20307830627d2c042a,
  0x092f2f203232320930786465093131303131313130096c656e0933093409320934042b,
  0x097b307830302c20307830312c20307830322c20307866662c20307830332c20307830342c20307830352c20307830362c20307830372c20307830382c20307866662c20307866662c20307830392c20307830612c20307830622c20307830637d2c042c,
  0x092f2f203232330930786466093131303131313131096c656e0934093409320934042d,
  0x097b307830302c20307830312c20307830322c20307830332c20307830342c20307830352c20307830362c20307830372c20307830382c20307830392c20307866662c20307866662c20307830612c20307830622c20307830632c20307830647d2c042e,
  0x092f2f203232340930786530093131313030303030096c656e0931093109330934042f,
  0x097b307830302c20307866662c20307866662c20307866662c20307830312c20307866662c20307866662c20307866662c20307830322c20307830332c20307830342c20307866662c20307830352c20307830362c20307830372c20307830387d2c0430,
  0x092f2f203232350930786531093131313030303031096c656e09320931093309340431,
  0x097b307830302c20307830312c20307866662c20307866662c20307830322c20307866662c20307866662c20307866662c20307830332c20307830342c20307830352c20307866662c20307830362c20307830372c20307830382c20307830397d2c0432,
  0x092f2f203232360930786532093131313030303130096c656e09330931093309340433,
  0x097b307830302c20307830312c20307830322c20307866662c20307830332c20307866662c20307866662c20307866662c20307830342c20307830352c20307830362c20307866662c20307830372c20307830382c20307830392c20307830617d2c0434,
  0x092f2f203232370930786533093131313030303131096c656e09340931093309340435,
  0x097b307830302c20307830312c20307830322c20307830332c20307830342c20307866662c20307866662c20307866662c20307830352c20307830362c20307830372c20307866662c20307830382c20307830392c20307830612c20307830627d2c0436,
  0x092f2f203232380930786534093131313030313030096c656e09310932093309340437,
  0x097b307830302c20307866662c20307866662c20307866662c20307830312c20307830322c20307866662c20307866662c20307830332c20307830342c20307830352c20307866662c20307830362c20307830372c20307830382c20307830397d2c0438,
  0x092f2f203232390930786535093131313030313031096c656e09320932093309340439,
  0x097b307830302c20307830312c20307866662c20307866662c20307830322c20307830332c20307866662c20307866662c20307830342c20307830352c20307830362c20307866662c20307830372c20307830382c20307830392c20307830617d2c043a,
  0x092f2f203233300930786536093131313030313130096c656e0933093209330934043b,
  0x097b307830302c20307830312c20307830322c20307866662c20307830332c20307830342c20307866662c20307866662c20307830352c20307830362c20307830372c20307866662c20307830382c20307830392c20307830612c20307830627d2c043c,
  0x092f2f203233310930786537093131313030313131096c656e0934093209330934043d,
  0x097b307830302c20307830312c20307830322c20307830332c20307830342c20307830352c20307866662c20307866662c20307830362c20307830372c20307830382c20307866662c20307830392c20307830612c20307830622c20307830637d2c043e,
  0x092f2f203233320930786538093131313031303030096c656e0931093309330934043f,
  0x097b307830302c20307866662c20307866662c20307866662c20307830312c20307830322c20307830332c20307866662c20307830342c20307830352c20307830362c20307866662c20307830372c20307830382c20307830392c20307830617d2c0440,
  0x092f2f203233330930786539093131313031303031096c656e09320933093309340441,
  0x097b307830302c20307830312c20307866662c20307866662c20307830322c20307830332c20307830342c20307866662c20307830352c20307830362c20307830372c20307866662c20307830382c20307830392c20307830612c20307830627d2c0442,
  0x092f2f203233340930786561093131313031303130096c656e09330933093309340443,
  0x097b307830302c20307830312c20307830322c20307866662c20307830332c20307830342c20307830352c20307866662c20307830362c20307830372c20307830382c20307866662c20307830392c20307830612c20307830622c20307830637d2c0444,
  0x092f2f203233350930786562093131313031303131096c656e09340933093309340445,
  0x097b307830302c20307830312c20307830322c20307830332c20307830342c20307830352c20307830362c20307866662c20307830372c20307830382c20307830392c20307866662c20307830612c20307830622c20307830632c20307830647d2c0446,
  0x092f2f203233360930786563093131313031313030096c656e09310934093309340447,
  0x097b307830302c20307866662c20307866662c20307866662c20307830312c20307830322c20307830332c20307830342c20307830352c20307830362c20307830372c20307866662c20307830382c20307830392c20307830612c20307830627d2c0448,
  0x092f2f203233370930786564093131313031313031096c656e09320934093309340449,
  0x097b307830302c20307830312c20307866662c20307866662c20307830322c20307830332c20307830342c20307830352c20307830362c20307830372c20307830382c20307866662c20307830392c20307830612c20307830622c20307830637d2c044a,
  0x092f2f203233380930786565093131313031313130096c656e0933093409330934044b,
  0x097b307830302c20307830312c20307830322c20307866662c20307830332c20307830342c20307830352c20307830362c20307830372c20307830382c20307830392c20307866662c20307830612c20307830622c20307830632c20307830647d2c044c,
  0x092f2f203233390930786566093131313031313131096c656e0934093409330934044d,
  0x097b307830302c20307830312c20307830322c20307830332c20307830342c20307830352c20307830362c20307830372c20307830382c20307830392c20307830612c20307866662c20307830622c20307830632c20307830642c20307830657d2c044e,
  0x092f2f203234300930786630093131313130303030096c656e0931093109340934044f,
  0x097b307830302c20307866662c20307866662c20307866662c20307830312c20307866662c20307866662c20307866662c20307830322c20307830332c20307830342c20307830352c20307830362c20307830372c20307830382c20307830397d2c0450,
  0x092f2f203234310930786631093131313130303031096c656e09320931093409340451,
  0x097b307830302c20307830312c20307866662c20307866662c20307830322c20307866662c20307866662c20307866662c20307830332c20307830342c20307830352c20307830362c20307830372c20307830382c20307830392c20307830617d2c0452,
  0x092f2f203234320930786632093131313130303130096c656e09330931093409340453,
  0x097b307830302c20307830312c20307830322c20307866662c20307830332c20307866662c20307866662c20307866662c20307830342c20307830352c20307830362c20307830372c20307830382c20307830392c20307830612c20307830627d2c0454,
  0x092f2f203234330930786633093131313130303131096c656e09340931093409340455,
  0x097b307830302c20307830312c20307830322c20307830332c20307830342c20307866662c20307866662c20307866662c20307830352c20307830362c20307830372c20307830382c20307830392c20307830612c20307830622c20307830637d2c0456,
  0x092f2f203234340930786634093131313130313030096c656e09310932093409340457,
  0x097b307830302c20307866662c20307866662c20307866662c20307830312c20307830322c20307866662c20307866662c20307830332c20307830342c20307830352c20307830362c20307830372c20307830382c20307830392c20307830617d2c0458,
  0x092f2f203234350930786635093131313130313031096c656e09320932093409340459,
  0x097b307830302c20307830312c20307866662c20307866662c20307830322c20307830332c20307866662c20307866662c20307830342c20307830352c20307830362c20307830372c20307830382c20307830392c20307830612c20307830627d2c045a,
  0x092f2f203234360930786636093131313130313130096c656e0933093209340934045b,
  0x097b307830302c20307830312c20307830322c20307866662c20307830332c20307830342c20307866662c20307866662c20307830352c20307830362c20307830372c20307830382c20307830392c20307830612c20307830622c20307830637d2c045c,
  0x092f2f203234370930786637093131313130313131096c656e0934093209340934045d,
  0x097b307830302c20307830312c20307830322c20307830332c20307830342c20307830352c20307866662c20307866662c20307830362c20307830372c20307830382c20307830392c20307830612c20307830622c20307830632c20307830647d2c045e,
  0x092f2f203234380930786638093131313131303030096c656e0931093309340934045f,
  0x097b307830302c20307866662c20307866662c20307866662c20307830312c20307830322c20307830332c20307866662c20307830342c20307830352c20307830362c20307830372c20307830382c20307830392c20307830612c20307830627d2c0460,
  0x092f2f203234390930786639093131313131303031096c656e09320933093409340461,
  0x097b307830302c20307830312c20307866662c20307866662c20307830322c20307830332c20307830342c20307866662c20307830352c20307830362c20307830372c20307830382c20307830392c20307830612c20307830622c20307830637d2c0462,
  0x092f2f203235300930786661093131313131303130096c656e09330933093409340463,
  0x097b307830302c20307830312c20307830322c20307866662c20307830332c20307830342c20307830352c20307866662c20307830362c20307830372c20307830382c20307830392c20307830612c20307830622c20307830632c20307830647d2c0464,
  0x092f2f203235310930786662093131313131303131096c656e09340933093409340465,
  0x097b307830302c20307830312c20307830322c20307830332c20307830342c20307830352c20307830362c20307866662c20307830372c20307830382c20307830392c20307830612c20307830622c20307830632c20307830642c20307830657d2c0466,
  0x092f2f203235320930786663093131313131313030096c656e09310934093409340467,
  0x097b307830302c20307866662c20307866662c20307866662c20307830312c20307830322c20307830332c20307830342c20307830352c20307830362c20307830372c20307830382c20307830392c20307830612c20307830622c20307830637d2c0468,
  0x092f2f203235330930786664093131313131313031096c656e09320934093409340469,
  0x097b307830302c20307830312c20307866662c20307866662c20307830322c20307830332c20307830342c20307830352c20307830362c20307830372c20307830382c20307830392c20307830612c20307830622c20307830632c20307830647d2c046a,
  0x092f2f203235340930786665093131313131313130096c656e0933093409340934046b,
  0x097b307830302c20307830312c20307830322c20307866662c20307830332c20307830342c20307830352c20307830362c20307830372c20307830382c20307830392c20307830612c20307830622c20307830632c20307830642c20307830657d2c046c,
  0x092f2f203235350930786666093131313131313131096c656e0934093409340934046d,
  0x097b307830302c20307830312c20307830322c20307830332c20307830342c20307830352c20307830362c20307830372c20307830382c20307830392c20307830612c20307830622c20307830632c20307830642c20307830652c20307830667d2c046e,
  0x7d046f]

/-- `/repo/pkg/shared/tables.go`. -/
def tablesGo : List Nat :=
  tablesGo0 ++ (tablesGo1 ++ (tablesGo2 ++ (tablesGo3 ++ (tablesGo4 ++ (tablesGo5 ++ (tablesGo6 ++ (tablesGo7 ++ (tablesGo8))))))))

/-- `/repo/pkg/encode/encode_amd64.s:1-86`. -/
def encodeS : List Nat := [
  0x2f2f20436f64652067656e65726174656420627920636f6d6d616e643a20676f2072756e2061736d2e676f202d6f7574202e2f656e636f64655f616d6436342e732e20444f204e4f5420454449542e0001,  -- // Code generated by command: go run asm.go -out ./encode_amd64.s. DO NOT EDIT.
  0x0002,
  0x23696e636c756465202274657874666c61672e68220003,  -- #include "textflag.h"
  0x0004,
  0x44415441206d61736b303130313c3e2b30285342292f322c20243078303130310005,  -- DATA mask0101<>+0(SB)/2, $0x0101
  0x474c4f424c206d61736b303130313c3e285342292c20524f444154417c4e4f5054522c2024320006,  -- GLOBL mask0101<>(SB), RODATA|NOPTR, $2
  0x0007,
  0x44415441206d61736b374630303c3e2b30285342292f322c20243078376630300008,  -- DATA mask7F00<>+0(SB)/2, $0x7f00
  0x474c4f424c206d61736b374630303c3e285342292c20524f444154417c4e4f5054522c2024320009,  -- GLOBL mask7F00<>(SB), RODATA|NOPTR, $2
  0x000a,
  0x2f2f2066756e63205075743875696e7433324661737441736d28696e205b5d75696e7433322c206f75744279746573205b5d627974652c2073687566666c65202a5b3235365d5b31365d75696e74382c206c656e5461626c65202a5b3235365d75696e7438292028722075696e74313629000b,  -- // func Put8uint32FastAsm(in []uint32, outBytes []byte, shuffle *[256][16]uint8, lenTable *[256]uint8) (r uint16)
  0x2f2f2052657175697265733a204156582c2041565832000c,  -- // Requires: AVX, AVX2
  0x5445585420c2b75075743875696e7433324661737441736d285342292c204e4f53504c49542c2024302d3636000d,  -- TEXT ·Put8uint32FastAsm(SB), NOSPLIT, $0-66
  0x094d4f5651202020202020202020696e5f626173652b30284650292c204158000e,  -- MOVQ         in_base+0(FP), AX
  0x09564c4444515520202020202020284158292c205830000f,  -- VLDDQU       (AX), X0
  0x09564c44445155202020202020203136284158292c2058310010,  -- VLDDQU       16(AX), X1
  0x09565042524f41444341535457206d61736b303130313c3e2b30285342292c2058320011,  -- VPBROADCASTW mask0101<>+0(SB), X2
  0x09565042524f41444341535457206d61736b374630303c3e2b30285342292c2058330012,  -- VPBROADCASTW mask7F00<>+0(SB), X3
  0x0956504d494e554220202020202058322c2058302c2058340013,  -- VPMINUB      X2, X0, X4
  0x0956504d494e554220202020202058322c2058312c2058350014,  -- VPMINUB      X2, X1, X5
  0x09565041434b555357422020202058352c2058342c2058340015,  -- VPACKUSWB    X5, X4, X4
  0x0956504d494e535720202020202058322c2058342c2058340016,  -- VPMINSW      X2, X4, X4
  0x095650414444555357202020202058332c2058342c2058340017,  -- VPADDUSW     X3, X4, X4
  0x0956504d4f564d534b422020202058342c2041580018,  -- VPMOVMSKB    X4, AX
  0x094d4f565720202020202020202041582c20722b3634284650290019,  -- MOVW         AX, r+64(FP)
  0x094d4f565120202020202020202073687566666c652b3438284650292c204358001a,  -- MOVQ         shuffle+48(FP), CX
  0x094d4f5642515a58202020202020414c2c204458001b,  -- MOVBQZX      AL, DX
  0x0953484c5120202020202020202024307830342c204458001c,  -- SHLQ         $0x04, DX
  0x094144445120202020202020202043582c204458001d,  -- ADDQ         CX, DX
  0x094d4f5657515a5820202020202041582c204258001e,  -- MOVWQZX      AX, BX
  0x095348525120202020202020202024307830382c204258001f,  -- SHRQ         $0x08, BX
  0x0953484c5120202020202020202024307830342c2042580020,  -- SHLQ         $0x04, BX
  0x094144445120202020202020202043582c2042580021,  -- ADDQ         CX, BX
  0x0956505348554642202020202020284458292c2058302c2058300022,  -- VPSHUFB      (DX), X0, X0
  0x0956505348554642202020202020284258292c2058312c2058310023,  -- VPSHUFB      (BX), X1, X1
  0x094d4f56512020202020202020206f757442797465735f626173652b3234284650292c2043580024,  -- MOVQ         outBytes_base+24(FP), CX
  0x094d4f565120202020202020202043582c2044580025,  -- MOVQ         CX, DX
  0x094d4f56512020202020202020206c656e5461626c652b3536284650292c2042580026,  -- MOVQ         lenTable+56(FP), BX
  0x094d4f5642515a58202020202020414c2c2041580027,  -- MOVBQZX      AL, AX
  0x094144445120202020202020202042582c2041580028,  -- ADDQ         BX, AX
  0x094d4f5642515a58202020202020284158292c2041580029,  -- MOVBQZX      (AX), AX
  0x094144445120202020202020202041582c204458002a,  -- ADDQ         AX, DX
  0x09564d4f5644515520202020202058302c2028435829002b,  -- VMOVDQU      X0, (CX)
  0x09564d4f5644515520202020202058312c2028445829002c,  -- VMOVDQU      X1, (DX)
  0x09524554002d,  -- RET
  0x002e,
  0x2f2f2066756e63205075743875696e74333244656c74614661737441736d28696e205b5d75696e7433322c206f75744279746573205b5d627974652c20707265762075696e7433322c2073687566666c65202a5b3235365d5b31365d75696e74382c206c656e5461626c65202a5b3235365d75696e7438292028722075696e74313629002f,  -- // func Put8uint32DeltaFastAsm(in []uint32, outBytes []byte, prev uint32, shuffle *[256][16]uint8, lenTable *[256]uint8) (r uint16)
  0x2f2f2052657175697265733a204156582c20415658320030,  -- // Requires: AVX, AVX2
  0x5445585420c2b75075743875696e74333244656c74614661737441736d285342292c204e4f53504c49542c2024302d37340031,  -- TEXT ·Put8uint32DeltaFastAsm(SB), NOSPLIT, $0-74
  0x094d4f5651202020202020202020696e5f626173652b30284650292c2041580032,  -- MOVQ         in_base+0(FP), AX
  0x09564c4444515520202020202020284158292c2058300033,  -- VLDDQU       (AX), X0
  0x09564c44445155202020202020203136284158292c2058310034,  -- VLDDQU       16(AX), X1
  0x095650414c49474e52202020202024307830632c2058302c2058312c2058320035,  -- VPALIGNR     $0x0c, X0, X1, X2
  0x095650535542442020202020202058322c2058312c2058310036,  -- VPSUBD       X2, X1, X1
  0x095642524f414443415354535320707265762b3438284650292c2058320037,  -- VBROADCASTSS prev+48(FP), X2
  0x095650414c49474e52202020202024307830632c2058322c2058302c2058320038,  -- VPALIGNR     $0x0c, X2, X0, X2
  0x095650535542442020202020202058322c2058302c2058300039,  -- VPSUBD       X2, X0, X0
  0x09565042524f41444341535457206d61736b303130313c3e2b30285342292c205832003a,  -- VPBROADCASTW mask0101<>+0(SB), X2
  0x09565042524f41444341535457206d61736b374630303c3e2b30285342292c205833003b,  -- VPBROADCASTW mask7F00<>+0(SB), X3
  0x0956504d494e554220202020202058322c2058302c205834003c,  -- VPMINUB      X2, X0, X4
  0x0956504d494e554220202020202058322c2058312c205835003d,  -- VPMINUB      X2, X1, X5
  0x09565041434b555357422020202058352c2058342c205834003e,  -- VPACKUSWB    X5, X4, X4
  0x0956504d494e535720202020202058322c2058342c205834003f,  -- VPMINSW      X2, X4, X4
  0x095650414444555357202020202058332c2058342c2058340040,  -- VPADDUSW     X3, X4, X4
  0x0956504d4f564d534b422020202058342c2041580041,  -- VPMOVMSKB    X4, AX
  0x094d4f565720202020202020202041582c20722b3732284650290042,  -- MOVW         AX, r+72(FP)
  0x094d4f565120202020202020202073687566666c652b3536284650292c2043580043,  -- MOVQ         shuffle+56(FP), CX
  0x094d4f5642515a58202020202020414c2c2044580044,  -- MOVBQZX      AL, DX
  0x0953484c5120202020202020202024307830342c2044580045,  -- SHLQ         $0x04, DX
  0x094144445120202020202020202043582c2044580046,  -- ADDQ         CX, DX
  0x094d4f5657515a5820202020202041582c2042580047,  -- MOVWQZX      AX, BX
  0x095348525120202020202020202024307830382c2042580048,  -- SHRQ         $0x08, BX
  0x0953484c5120202020202020202024307830342c2042580049,  -- SHLQ         $0x04, BX
  0x094144445120202020202020202043582c204258004a,  -- ADDQ         CX, BX
  0x0956505348554642202020202020284458292c2058302c205830004b,  -- VPSHUFB      (DX), X0, X0
  0x0956505348554642202020202020284258292c2058312c205831004c,  -- VPSHUFB      (BX), X1, X1
  0x094d4f56512020202020202020206f757442797465735f626173652b3234284650292c204358004d,  -- MOVQ         outBytes_base+24(FP), CX
  0x094d4f565120202020202020202043582c204458004e,  -- MOVQ         CX, DX
  0x094d4f56512020202020202020206c656e5461626c652b3634284650292c204258004f,  -- MOVQ         lenTable+64(FP), BX
  0x094d4f5642515a58202020202020414c2c2041580050,  -- MOVBQZX      AL, AX
  0x094144445120202020202020202042582c2041580051,  -- ADDQ         BX, AX
  0x094d4f5642515a58202020202020284158292c2041580052,  -- MOVBQZX      (AX), AX
  0x094144445120202020202020202041582c2044580053,  -- ADDQ         AX, DX
  0x09564d4f5644515520202020202058302c20284358290054,  -- VMOVDQU      X0, (CX)
  0x09564d4f5644515520202020202058312c20284458290055,  -- VMOVDQU      X1, (DX)
  0x095245540056]  -- RET

/-- `/repo/pkg/decode/decode_amd64.s:1-71`. -/
def decodeS : List Nat := [
  0x2f2f20436f64652067656e65726174656420627920636f6d6d616e643a20676f2072756e2061736d2e676f202d6f7574202e2f6465636f64655f616d6436342e732e20444f204e4f5420454449542e0001,  -- // Code generated by command: go run asm.go -out ./decode_amd64.s. DO NOT EDIT.
  0x0002,
  0x23696e636c756465202274657874666c61672e68220003,  -- #include "textflag.h"
  0x0004,
  0x2f2f2066756e63204765743875696e7433324661737441736d28696e205b5d627974652c206f7574205b5d75696e7433322c206374726c2075696e7431362c2073687566666c65202a5b3235365d5b31365d75696e74382c206c656e5461626c65202a5b3235365d75696e7438290005,  -- // func Get8uint32FastAsm(in []byte, out []uint32, ctrl uint16, shuffle *[256][16]uint8, lenTable *[256]uint8)
  0x2f2f2052657175697265733a204156580006,  -- // Requires: AVX
  0x5445585420c2b74765743875696e7433324661737441736d285342292c204e4f53504c49542c2024302d37320007,  -- TEXT ·Get8uint32FastAsm(SB), NOSPLIT, $0-72
  0x094d4f5657515a58206374726c2b3438284650292c2041580008,  -- MOVWQZX ctrl+48(FP), AX
  0x094d4f56512020202073687566666c652b3536284650292c2043580009,  -- MOVQ    shuffle+56(FP), CX
  0x094d4f5642515a5820414c2c204458000a,  -- MOVBQZX AL, DX
  0x0953484c512020202024307830342c204458000b,  -- SHLQ    $0x04, DX
  0x09414444512020202043582c204458000c,  -- ADDQ    CX, DX
  0x094d4f5657515a582041582c204258000d,  -- MOVWQZX AX, BX
  0x09534852512020202024307830382c204258000e,  -- SHRQ    $0x08, BX
  0x0953484c512020202024307830342c204258000f,  -- SHLQ    $0x04, BX
  0x09414444512020202043582c2042580010,  -- ADDQ    CX, BX
  0x094d4f565120202020696e5f626173652b30284650292c2043580011,  -- MOVQ    in_base+0(FP), CX
  0x094d4f56512020202043582c2053490012,  -- MOVQ    CX, SI
  0x094d4f5651202020206c656e5461626c652b3634284650292c2044490013,  -- MOVQ    lenTable+64(FP), DI
  0x094d4f5642515a5820414c2c2041580014,  -- MOVBQZX AL, AX
  0x09414444512020202044492c2041580015,  -- ADDQ    DI, AX
  0x094d4f5642515a5820284158292c2041580016,  -- MOVBQZX (AX), AX
  0x09414444512020202041582c2053490017,  -- ADDQ    AX, SI
  0x09564c444451552020284358292c2058300018,  -- VLDDQU  (CX), X0
  0x09564c444451552020285349292c2058310019,  -- VLDDQU  (SI), X1
  0x095650534855464220284458292c2058302c205830001a,  -- VPSHUFB (DX), X0, X0
  0x095650534855464220284258292c2058312c205831001b,  -- VPSHUFB (BX), X1, X1
  0x094d4f5651202020206f75745f626173652b3234284650292c204158001c,  -- MOVQ    out_base+24(FP), AX
  0x09564d4f564451552058302c2028415829001d,  -- VMOVDQU X0, (AX)
  0x09564d4f564451552058312c20313628415829001e,  -- VMOVDQU X1, 16(AX)
  0x09524554001f,  -- RET
  0x0020,
  0x2f2f2066756e63204765743875696e74333244656c74614661737441736d28696e205b5d627974652c206f7574205b5d75696e7433322c206374726c2075696e7431362c20707265762075696e7433322c2073687566666c65202a5b3235365d5b31365d75696e74382c206c656e5461626c65202a5b3235365d75696e7438290021,  -- // func Get8uint32DeltaFastAsm(in []byte, out []uint32, ctrl uint16, prev uint32, shuffle *[256][16]uint8, lenTable *[256]uint8)
  0x2f2f2052657175697265733a204156580022,  -- // Requires: AVX
  0x5445585420c2b74765743875696e74333244656c74614661737441736d285342292c204e4f53504c49542c2024302d37320023,  -- TEXT ·Get8uint32DeltaFastAsm(SB), NOSPLIT, $0-72
  0x094d4f5657515a582020202020206374726c2b3438284650292c2041580024,  -- MOVWQZX      ctrl+48(FP), AX
  0x094d4f565120202020202020202073687566666c652b3536284650292c2043580025,  -- MOVQ         shuffle+56(FP), CX
  0x094d4f5642515a58202020202020414c2c2044580026,  -- MOVBQZX      AL, DX
  0x0953484c5120202020202020202024307830342c2044580027,  -- SHLQ         $0x04, DX
  0x094144445120202020202020202043582c2044580028,  -- ADDQ         CX, DX
  0x094d4f5657515a5820202020202041582c2042580029,  -- MOVWQZX      AX, BX
  0x095348525120202020202020202024307830382c204258002a,  -- SHRQ         $0x08, BX
  0x0953484c5120202020202020202024307830342c204258002b,  -- SHLQ         $0x04, BX
  0x094144445120202020202020202043582c204258002c,  -- ADDQ         CX, BX
  0x094d4f5651202020202020202020696e5f626173652b30284650292c204358002d,  -- MOVQ         in_base+0(FP), CX
  0x094d4f565120202020202020202043582c205349002e,  -- MOVQ         CX, SI
  0x094d4f56512020202020202020206c656e5461626c652b3634284650292c204449002f,  -- MOVQ         lenTable+64(FP), DI
  0x094d4f5642515a58202020202020414c2c2041580030,  -- MOVBQZX      AL, AX
  0x094144445120202020202020202044492c2041580031,  -- ADDQ         DI, AX
  0x094d4f5642515a58202020202020284158292c2041580032,  -- MOVBQZX      (AX), AX
  0x094144445120202020202020202041582c2053490033,  -- ADDQ         AX, SI
  0x09564c4444515520202020202020284358292c2058300034,  -- VLDDQU       (CX), X0
  0x09564c4444515520202020202020285349292c2058310035,  -- VLDDQU       (SI), X1
  0x0956505348554642202020202020284458292c2058302c2058300036,  -- VPSHUFB      (DX), X0, X0
  0x0956505348554642202020202020284258292c2058312c2058310037,  -- VPSHUFB      (BX), X1, X1
  0x095642524f414443415354535320707265762b3532284650292c2058320038,  -- VBROADCASTSS prev+52(FP), X2
  0x095650534c4c445120202020202024307830342c2058302c2058330039,  -- VPSLLDQ      $0x04, X0, X3
  0x095650414444442020202020202058302c2058332c205830003a,  -- VPADDD       X0, X3, X0
  0x095650534c4c445120202020202024307830382c2058302c205833003b,  -- VPSLLDQ      $0x08, X0, X3
  0x095650414444442020202020202058302c2058322c205830003c,  -- VPADDD       X0, X2, X0
  0x095650414444442020202020202058302c2058332c205830003d,  -- VPADDD       X0, X3, X0
  0x095650534855464420202020202024307866662c2058302c205832003e,  -- VPSHUFD      $0xff, X0, X2
  0x095650534c4c445120202020202024307830342c2058312c205833003f,  -- VPSLLDQ      $0x04, X1, X3
  0x095650414444442020202020202058312c2058332c2058310040,  -- VPADDD       X1, X3, X1
  0x095650534c4c445120202020202024307830382c2058312c2058330041,  -- VPSLLDQ      $0x08, X1, X3
  0x095650414444442020202020202058312c2058322c2058310042,  -- VPADDD       X1, X2, X1
  0x095650414444442020202020202058312c2058332c2058310043,  -- VPADDD       X1, X3, X1
  0x094d4f56512020202020202020206f75745f626173652b3234284650292c2041580044,  -- MOVQ         out_base+24(FP), AX
  0x09564d4f5644515520202020202058302c20284158290045,  -- VMOVDQU      X0, (AX)
  0x09564d4f5644515520202020202058312c203136284158290046,  -- VMOVDQU      X1, 16(AX)
  0x095245540047]  -- RET

/-- `/repo/pkg/encode/encode_amd64.go:1-128`. -/
def encodeGo0 : List Nat := [
  0x2f2f202b6275696c6420616d6436340001,
  0x0002,
  0x2f2f205061636b61676520656e636f64652070726f766964657320616e207838365f363420696d706c656d656e746174696f6e206f662074776f0003,
  0x2f2f2053747265616d20564279746520656e636f64696e6720616c676f726974686d732c2061206e6f726d616c20656e636f64696e6720617070726f6163680004,
  0x2f2f20616e64206f6e65207468617420696e636f72706f726174657320646966666572656e7469616c20636f64696e672e0005,
  0x7061636b61676520656e636f64650006,
  0x0007,
  0x696d706f727420280008,
  0x09226769746875622e636f6d2f7468654d506174656c2f73747265616d76627974652d73696d64676f2f706b672f736861726564220009,
  0x0922676f6c616e672e6f72672f782f7379732f63707522000a,
  0x29000b,
  0x000c,
  0x2f2f204765744d6f646520706572666f726d73206120636865636b20746f20736565206966207468652063757272656e742049534120737570706f727473000d,
  0x2f2f207468652062656c6f7720656e636f64696e672066756e63732e000e,
  0x66756e63204765744d6f64652829207368617265642e506572666f726d616e63654d6f6465207b000f,
  0x096966206370752e5838362e486173415658202626206370752e5838362e48617341565832207b0010,
  0x090972657475726e207368617265642e466173740011,
  0x097d0012,
  0x0972657475726e207368617265642e4e6f726d616c0013,
  0x7d0014,
  0x0015,
  0x2f2f205075743875696e743332466173742062696e647320746f207075743875696e7433324661737420776869636820697320696d706c656d656e7465640016,
  0x2f2f20696e20617373656d626c792e0017,
  0x66756e63205075743875696e7433324661737428696e205b5d75696e7433322c206f7574205b5d62797465292075696e743136207b0018,
  0x0972657475726e205075743875696e7433324661737441736d28696e2c206f75742c0019,
  0x09097368617265642e456e636f646553687566666c655461626c652c001a,
  0x09097368617265642e506572436f6e74726f6c4c656e5461626c652c001b,
  0x0929001c,
  0x7d001d,
  0x001e,
  0x2f2f205075743875696e74333244656c7461466173742062696e647320746f207075743875696e74333244656c74614661737420776869636820697320696d706c656d656e746564001f,
  0x2f2f20696e20617373656d626c792e0020,
  0x66756e63205075743875696e74333244656c74614661737428696e205b5d75696e7433322c206f7574205b5d627974652c20707265762075696e743332292075696e743136207b0021,
  0x0972657475726e205075743875696e74333244656c74614661737441736d280022,
  0x0909696e2c206f75742c20707265762c0023,
  0x09097368617265642e456e636f646553687566666c655461626c652c0024,
  0x09097368617265642e506572436f6e74726f6c4c656e5461626c652c0025,
  0x09290026,
  0x7d0027,
  0x0028,
  0x2f2f205075743875696e7433324661737441736d2068617320746872656520636f7265207068617365732e20466972737420612031362d62697420636f6e74726f6c2069730029,
  0x2f2f2067656e65726174656420666f722074686520696e636f6d696e6720382075696e743332732e205468656e2c207468652063616c63756c6174656420636f6e74726f6c002a,
  0x2f2f206973207573656420746f20696e64657820696e746f207368617265642e456e636f646553687566666c655461626c6520746f20666574636820746865002b,
  0x2f2f20636f72726563742073687566666c65206d61736b20746f20636f6d70726573732074686520696e636f6d696e6720696e7465676572732e2046696e616c6c792c002c,
  0x2f2f207468652063616c63756c6174656420636f6e74726f6c206973207573656420746f20696e64657820696e746f207368617265642e506572436f6e74726f6c4c656e5461626c65002d,
  0x2f2f20746f2064657465726d696e6520746865206f66667365747320696e20746865206f757470757420617272617920746f20777269746520746f2e002e,
  0x2f2f002f,
  0x2f2f204261736564206f6e2074686520616c676f726974686d2064657669736564206279204c656d69726520657420616c2e2c207468652053494d4420636f6e74726f6c0030,
  0x2f2f20627974652067656e65726174696f6e20616c676f726974686d2070726f636565647320617320666f6c6c6f77732e204e6f7465207468617420686572652077650031,
  0x2f2f20617265207573696e672031323334206173206f7572206669727374206578616d706c6520696e74656765722e0032,
  0x2f2f0033,
  0x2f2f203030303030303030203030303030303030203030303030313030203131303130303130202f2f20313233340034,
  0x2f2f203030303030303031203030303030303031203030303030303031203030303030303031202f2f20307830313031206d61736b0035,
  0x2f2f202d2d2d2d2d2d2d2d2d2d2d2d2d2d2d2d2d2d2d2d2d2d2d2d2d2d2d2d2d2d2d2d2d2d2d202f2f20627974652d6d696e28313233342c20307830313031290036,
  0x2f2f2030303030303030302030303030303030302030303030303030312030303030303030310037,
  0x2f2f0038,
  0x2f2f2054686520616c676f726974686d20666972737420757365732061206d61736b207768657265206576657279206279746520697320657175616c20746f20312e2049660039,
  0x2f2f20796f7520706572666f726d2061207065722d62797465206d696e206f7065726174696f6e206f6e206f757220696e746567657220616e642074686520312773206d61736b2c003a,
  0x2f2f2074686520726573756c742077696c6c206861766520612031206174206576657279206279746520746861742068616420612076616c756520696e20746865206f726967696e616c003b,
  0x2f2f20696e74656765722e003c,
  0x2f2f003d,
  0x2f2f203030303030303030203030303030303030203030303030303031203030303030303031003e,
  0x2f2f202d2d2d2d2d2d2d2d2d2d2d2d2d2d2d2d2d2d2d2d2d2d2d2d2d2d2d2d2d2d2d2d2d2d2d202f2f207061636b20756e7369676e65642073617475726174696e67003f,
  0x2f2f203030303030303030203030303030303030203030303030303030203131313131313131202f2f2031362d62697420746f20382d6269740040,
  0x2f2f0041,
  0x2f2f204e6f7720796f7520706572666f726d20612031362d62697420746f20382d62697420756e7369676e65642073617475726174696e67207061636b206f7065726174696f6e2e0042,
  0x2f2f2050726163746963616c6c792074686973206d65616e73207468617420796f752772652074616b696e672065766572792031362d6269742076616c756520616e6420747279696e670043,
  0x2f2f20746f2073686f7665207468617420696e746f203820626974732e204966207468652031362d62697420696e7465676572206973206c6172676572207468616e207468650044,
  0x2f2f206c61726765737420756e7369676e656420696e7465676572203820626974732063616e20737570706f72742c20746865207061636b2073617475726174657320746f207468650045,
  0x2f2f206c61726765737420756e7369676e656420382d6269742076616c75652e0046,
  0x2f2f0047,
  0x2f2f20576879207468697320697320706572666f726d65642077696c6c206265636f6d65206d6f726520636c65617220696e207468652073756273657175656e742073746570732c0048,
  0x2f2f20686f77657665722c20617420612068696768206c6576656c2c20666f7220657665727920696e746567657220796f752077616e7420746f20656e636f64652c20796f750049,
  0x2f2f2077616e7420666f7220746865204d5342206f662074776f20636f6e736563757469766520627974657320696e2074686520636f6e74726f6c20626974732073747265616d004a,
  0x2f2f20746f20626520726570726573656e746174697665206f66207468652066696e616c20322d62697420636f6e74726f6c2e20466f72206578616d706c652c20696620796f75004b,
  0x2f2f2068617665206120332d6279746520696e74656765722c20796f752077616e7420746865204d5342206f662074776f20636f6e736563757469766520627974657320746f206265004c,
  0x2f2f203120616e6420302c20696e2074686174206f726465722e2054686520726561736f6e20796f7520776f756c642077616e7420746869732069732074686174207468657265004d,
  0x2f2f206973206120766563746f72207061636b20696e737472756374696f6e20746861742074616b657320746865204d53422066726f6d206576657279206279746520696e20746865004e,
  0x2f2f20636f6e74726f6c20626974732073747265616d20616e64207061636b7320697420696e746f20746865206c6f7765737420627974652e205468697320776f756c642074687573004f,
  0x2f2f20726570726573656e74207468652076616c75652060306231306020696e207468652066696e616c206279746520666f72207468697320332d6279746520696e74656765722c0050,
  0x2f2f20776869636820697320776861742077652077616e742e0051,
  0x2f2f0052,
  0x2f2f20506572666f726d696e6720612031362d62697420746f20382d62697420756e7369676e65642073617475726174696e67207061636b2068617320746865206566666563740053,
  0x2f2f207468617420796f752063616e20757365207468652073617475726174696f6e206265686176696f7220746f20636f6e646974696f6e616c6c79207475726e206f6e207468650054,
  0x2f2f204d5342206f6620746865736520627974657320646570656e64696e67206f6e20776869636820627974657320686176652076616c75657320696e20746865206f726967696e616c0055,
  0x2f2f2033322d62697420696e74656765722e0056,
  0x2f2f0057,
  0x2f2f203030303030303030203030303030303030203030303030303030203131313131313131202f2f20636f6e74726f6c20626974732073747265616d0058,
  0x2f2f203030303030303031203030303030303031203030303030303031203030303030303031202f2f20307830313031206d61736b0059,
  0x2f2f202d2d2d2d2d2d2d2d2d2d2d2d2d2d2d2d2d2d2d2d2d2d2d2d2d2d2d2d2d2d2d2d2d2d2d202f2f207369676e65642031362d626974206d696e005a,
  0x2f2f203030303030303030203030303030303030203030303030303030203131313131313131005b,
  0x2f2f005c,
  0x2f2f205765207468656e2074616b652074686520312773206d61736b2077652075736564206265666f726520616e6420706572666f726d2061207369676e65642031362d626974005d,
  0x2f2f206d696e206f7065726174696f6e2e2054686520726561736f6e20666f722074686973206973206d6f726520636c65617220696620796f75206c6f6f6b20617420616e005e,
  0x2f2f206578616d706c65207573696e67206120332d6279746520696e74656765722e005f,
  0x2f2f0060,
  0x2f2f203030303030303030203030303031313030203030303031303130203130303030303131202f2f203738393132330061,
  0x2f2f203030303030303031203030303030303031203030303030303031203030303030303031202f2f20307830313031206d61736b0062,
  0x2f2f202d2d2d2d2d2d2d2d2d2d2d2d2d2d2d2d2d2d2d2d2d2d2d2d2d2d2d2d2d2d2d2d2d2d2d202f2f20627974652d6d696e283738393132332c20307830313031290063,
  0x2f2f2030303030303030302030303030303030312030303030303030312030303030303030310064,
  0x2f2f202d2d2d2d2d2d2d2d2d2d2d2d2d2d2d2d2d2d2d2d2d2d2d2d2d2d2d2d2d2d2d2d2d2d2d202f2f207061636b20756e7369676e65642073617475726174696e672031362d62697420746f20382d6269740065,
  0x2f2f2030303030303030302030303030303030302030303030303030312031313131313131310066,
  0x2f2f203030303030303031203030303030303031203030303030303031203030303030303031202f2f20307830313031206d61736b0067,
  0x2f2f202d2d2d2d2d2d2d2d2d2d2d2d2d2d2d2d2d2d2d2d2d2d2d2d2d2d2d2d2d2d2d2d2d2d2d202f2f207369676e65642031362d626974206d696e0068,
  0x2f2f2030303030303030302030303030303030302030303030303030312030303030303030310069,
  0x2f2f006a,
  0x2f2f20546865207369676e65642031362d626974206d696e206f7065726174696f6e2068617320746872656520696d706f7274616e7420656666656374732e006b,
  0x2f2f006c,
  0x2f2f2046697273742c20666f7220332d6279746520696e7465676572732c206974206861732074686520656666656374206f66207475726e696e67206f666620746865006d,
  0x2f2f204d5342206f6620746865206c6f7765737420627974652e2054686973206973206e65636573736172792062656361757365206120332d6279746520696e7465676572006e,
  0x2f2f2073686f756c642068617665206120322d62697420636f6e74726f6c20746861742069732060306231306020616e6420776974686f757420746869732073746570006f,
  0x2f2f207573696e6720746865204d5342207061636b206f7065726174696f6e20776f756c6420726573756c7420696e206120322d62697420636f6e74726f6c20746861740070,
  0x2f2f206c6f6f6b7320736f6d657468696e67206c696b65206030625f31602c20776865726520746865206c6f7765737420626974206973206f6e2e204f6276696f75736c790071,
  0x2f2f20746869732069732077726f6e672c2073696e6365206f6e6c7920696e746567657273207468617420726571756972652032206f72203420627974657320746f0072,
  0x2f2f20656e636f64652073686f756c6420686176652074686174206c6f77657220626974206f6e2c20692e652e2031206f7220332061732061207a65726f2d696e64657865640073,
  0x2f2f206c656e6774682e0074,
  0x2f2f0075,
  0x2f2f205365636f6e642c20666f7220342d6279746520696e7465676572732c20746865207369676e656420617370656374206861732074686520656666656374206f660076,
  0x2f2f206c656176696e6720626f7468204d534273206f66207468652032206279746573206f6e2e205768656e207573696e6720746865204d5342207061636b0077,
  0x2f2f206f7065726174696f6e206c61746572206f6e2c2069742077696c6c20726573756c7420696e206120322d62697420636f6e74726f6c2076616c7565206f660078,
  0x2f2f206030623131602c20776869636820697320776861742077652077616e742e0079,
  0x2f2f007a,
  0x2f2f2054686972642c20666f72203120616e642032206279746520696e7465676572732c20697420686173206e6f206566666563742e2054686973206973206772656174007b,
  0x2f2f20666f7220322d627974652076616c7565732073696e636520746865204d53422077696c6c2072656d61696e206f6e20616e64203120627974652076616c756573007c,
  0x2f2f2077696c6c206e6f74206861766520616e79204d5342206f6e20616e79776179732c20736f206974206973206566666563746976656c792061206e6f6f7020696e007d,
  0x2f2f20626f7468207363656e6172696f732e007e,
  0x2f2f007f,
  0x2f2f203030303030303030203030303030303030203030303030303030203131313131313131202f2f20636f6e74726f6c20626974732073747265616d20286f726967696e616c2031323334290080]

/-- `/repo/pkg/encode/encode_amd64.go:129-215`. -/
def encodeGo1 : List Nat := [
  0x2f2f203031313131313131203030303030303030203031313131313131203030303030303030202f2f20307837463030206d61736b0081,
  0x2f2f202d2d2d2d2d2d2d2d2d2d2d2d2d2d2d2d2d2d2d2d2d2d2d2d2d2d2d2d2d2d2d2d2d2d2d202f2f2061646420756e7369676e65642073617475726174696e672031362d6269740082,
  0x2f2f2030313131313131312030303030303030302030313131313131312031313131313131310083,
  0x2f2f0084,
  0x2f2f204e6578742c2077652074616b652061206d61736b2077697468207468652076616c756520603078374630306020616e6420706572666f726d20616e20756e7369676e65640085,
  0x2f2f2073617475726174696e672061646420746f2074686520636f6e74726f6c20626974732073747265616d2e20496e20746865206361736520666f722074686520696e74656765720086,
  0x2f2f20603132333460207468697320686173206e6f207265616c206566666563742e205765206d61696e7461696e20746865204d534220696e20746865206c6f7765737420627974652e0087,
  0x2f2f20596f75276c6c206e6f74652c20686f77657665722c207468617420746865206f6e6c79206279746520746861742068617320697473204d5342206f6e20697320746865206c6173740088,
  0x2f2f206f6e652c20736f20706572666f726d696e6720616e204d5342207061636b206f7065726174696f6e20776f756c6420726573756c7420696e20612076616c7565206f660089,
  0x2f2f2060306230303031602c20776869636820697320776861742077652077616e742e20416e206578616d706c65206f6620746869732073746570206f6e2074686520696e7465676572008a,
  0x2f2f206037383931323360206d69676874207061696e74206120636c656172657220706963747572652e008b,
  0x2f2f008c,
  0x2f2f203030303030303030203030303030303030203030303030303031203030303030303031202f2f20636f6e74726f6c20626974732073747265616d202837383931323329008d,
  0x2f2f203031313131313131203030303030303030203031313131313131203030303030303030202f2f20307837463030206d61736b008e,
  0x2f2f202d2d2d2d2d2d2d2d2d2d2d2d2d2d2d2d2d2d2d2d2d2d2d2d2d2d2d2d2d2d2d2d2d2d2d202f2f2061646420756e7369676e65642073617475726174696e672031362d626974008f,
  0x2f2f2030313131313131312030303030303030302031313131313131312030303030303030310090,
  0x2f2f0091,
  0x2f2f20596f75276c6c206e6f74652068657265207468617420746865206164646974696f6e206f662060307830316020776974682060307837466020696e207468652075707065720092,
  0x2f2f206279746520726573756c747320696e20746865204d5342206f662074686520726573756c74696e672075707065722062797465207475726e696e67206f6e2e20546865204d53420093,
  0x2f2f20696e20746865206c6f77657220627974652072656d61696e73206f666620616e64206e6f7720616e204d5342207061636b206f7065726174696f6e2077696c6c207265736f6c76650094,
  0x2f2f20746f2060306230303130602c20776869636820697320776861742077652077616e742e2054686520756e7369676e65642073617475726174696f6e206265686176696f722069730095,
  0x2f2f207265616c6c7920696d706f7274616e7420666f7220342d62797465206e756d626572732074686174206f6e6c792068617665206269747320696e20746865206d6f73740096,
  0x2f2f207369676e69666963616e742062797465206f6e2e20416e206578616d706c652062656c6f773a0097,
  0x2f2f0098,
  0x2f2f203031303030303030203030303030303030203030303030303030203030303030303030202f2f20313037333734313832340099,
  0x2f2f203030303030303031203030303030303031203030303030303031203030303030303031202f2f20307830313031206d61736b009a,
  0x2f2f202d2d2d2d2d2d2d2d2d2d2d2d2d2d2d2d2d2d2d2d2d2d2d2d2d2d2d2d2d2d2d2d2d2d2d202f2f20627974652d6d696e28313037333734313832342c2030783031303129009b,
  0x2f2f203030303030303031203030303030303030203030303030303030203030303030303030009c,
  0x2f2f202d2d2d2d2d2d2d2d2d2d2d2d2d2d2d2d2d2d2d2d2d2d2d2d2d2d2d2d2d2d2d2d2d2d2d202f2f207061636b20756e7369676e65642073617475726174696e672031362d62697420746f20382d626974009d,
  0x2f2f203030303030303030203030303030303030203131313131313131203030303030303030009e,
  0x2f2f203030303030303031203030303030303031203030303030303031203030303030303031202f2f20307830313031206d61736b009f,
  0x2f2f202d2d2d2d2d2d2d2d2d2d2d2d2d2d2d2d2d2d2d2d2d2d2d2d2d2d2d2d2d2d2d2d2d2d2d202f2f207369676e65642031362d626974206d696e00a0,
  0x2f2f20303030303030303020303030303030303020313131313131313120303030303030303000a1,
  0x2f2f203031313131313131203030303030303030203031313131313131203030303030303030202f2f20307837463030206d61736b00a2,
  0x2f2f202d2d2d2d2d2d2d2d2d2d2d2d2d2d2d2d2d2d2d2d2d2d2d2d2d2d2d2d2d2d2d2d2d2d2d202f2f2061646420756e7369676e65642073617475726174696e672031362d62697400a3,
  0x2f2f20303131313131313120303030303030303020313131313131313120313131313131313100a4,
  0x2f2f00a5,
  0x2f2f204e6f7465206865726520746861742062656361757365206f6e6c792074686520757070657220627974652068616420612076616c756520696e2069742c20746865206c6f7765737400a6,
  0x2f2f206279746520696e2074686520636f6e74726f6c20626974732073747265616d2072656d61696e73207a65726f20666f7220746865206475726174696f6e206f662074686500a7,
  0x2f2f20616c676f726974686d2e205468697320706f73657320616e2069737375652c2073696e636520666f72206120342d627974652076616c75652c2077652077616e7420666f722074686500a8,
  0x2f2f20322d62697420636f6e74726f6c20746f20726573756c7420696e20612076616c7565206f66206030623131602e20506572666f726d696e6720612031362d62697420756e7369676e656400a9,
  0x2f2f2073617475726174696e67206164646974696f6e206861732074686520656666656374206f66207475726e696e67206f6e20616c6c206269747320696e20746865206c6f77657200aa,
  0x2f2f20627974652c20616e64207468757320776520676574206120726573756c74207769746820746865204d534220696e20746865206c6f7765722062797465206f6e2e00ab,
  0x2f2f00ac,
  0x2f2f203031313131313131203030303030303030203131313131313131203030303030303031202f2f20636f6e74726f6c20626974732073747265616d20283738393132332900ad,
  0x2f2f202d2d2d2d2d2d2d2d2d2d2d2d2d2d2d2d2d2d2d2d2d2d2d2d2d2d2d2d2d2d2d2d2d2d2d202f2f206d6f76652062797465206d61736b00ae,
  0x2f2f203030303030303030203030303030303030203030303030303030203030303030303130202f2f20322d62697420636f6e74726f6c00af,
  0x2f2f00b0,
  0x2f2f205468652066696e616c206d6f76652062797465206d61736b20697320706572666f726d6564206f6e2074686520636f6e74726f6c20626974732073747265616d2c20616e6420776500b1,
  0x2f2f206e6f7720686176652074686520726573756c742077652077616e7465642e00b2,
  0x2f2f00b3,
  0x2f2f205765207468656e20757365207468652061626f766520636f6e74726f6c20626974732077652067656e65726174656420746f206765742074686520617070726f70726961746500b4,
  0x2f2f2073687566666c65206d61736b732e2042656c6f7720697320616e206578616d706c65206f6620686f77207468652073687566666c65206f7065726174696f6e20616e64206100b5,
  0x2f2f206d61736b20616c6c6f777320666f7220757320746f2074696768746c79207061636b2074776f20696e74656765727320696e746f20746865206f7574707574206275666665722e00b6,
  0x2f2f00b7,
  0x2f2f20696e707574205b313233342c203738393132335d20286c6974746c6520656e6469616e20522d746f2d4c2900b8,
  0x2f2f20303030303030303020303030303131303020303030303130313020313030303030313120303030303030303020303030303030303020303030303031303020313130313030313000b9,
  0x2f2f2020202020202020202020207c202020202020207c2020202020202020207c20202020202020202020202020202020202020202020202020202020207c20202020202020207c00ba,
  0x2f2f2020202020202020202020207c202020202020207c2020202020202020207c5f5f5f5f5f5f5f5f5f5f5f5f5f5f5f5f5f5f5f5f2020202020202020207c20202020202020207c00bb,
  0x2f2f2020202020202020202020207c202020202020207c5f5f5f5f5f5f5f5f5f5f5f5f5f5f5f5f5f5f5f5f5f2020202020202020207c20202020202020207c20202020202020207c00bc,
  0x2f2f2020202020202020202020207c5f5f5f5f5f5f5f5f5f5f5f5f5f5f5f5f5f5f5f5f2020202020202020207c20202020202020207c20202020202020207c20202020202020207c00bd,
  0x2f2f2020202020202020202020202020202020202020202020202020202020202020207620202020202020207620202020202020207620202020202020207620202020202020207600be,
  0x2f2f2020202030786666202020202030786666202020202030786666202020202030783036202020202030783035202020202030783034202020202030783031202020202030783030202f2f206d61736b20696e2068657800bf,
  0x2f2f202d2d2d2d2d2d2d2d2d2d2d2d2d2d2d2d2d2d2d2d2d2d2d2d2d2d2d2d2d2d2d2d2d2d2d2d2d2d2d2d2d2d2d2d2d2d2d2d2d2d2d2d2d2d2d2d2d2d2d2d2d2d2d2d2d2d2d2d2d2d2d00c0,
  0x2f2f203030303030303030203030303030303030203030303030303030203030303031313030203030303031303130203130303030303131203030303030313030203131303130303130202f2f207061636b656400c1,
  0x2f2f676f3a6e6f65736361706500c2,
  0x66756e63205075743875696e7433324661737441736d2800c3,
  0x09696e205b5d75696e7433322c206f75744279746573205b5d627974652c00c4,
  0x0973687566666c65202a5b3235365d5b31365d75696e74382c206c656e5461626c65202a5b3235365d75696e74382c00c5,
  0x292028722075696e7431362900c6,
  0x00c7,
  0x2f2f205075743875696e74333244656c74614661737441736d20776f726b732073696d696c61726c7920746f207075743875696e743332466173742065786365707400c8,
  0x2f2f2074686174207072696f7220746f20656e636f64696e672074686520382075696e743332732c2077652066697273742075736520646966666572656e7469616c00c9,
  0x2f2f20636f64696e6720746f206368616e676520746865206f726967696e616c206e756d6265727320696e746f2064656c746173207573696e672053494d4400ca,
  0x2f2f20746563686e69717565732e20416674657277617264732c2074686520656e636f64696e6720616c676f726974686d20666f6c6c6f7773207468652073616d6500cb,
  0x2f2f20666c6f77206173207075743875696e743332466173742e2054686520626173696320646966666572656e7469616c20636f64696e6720616c676f726974686d00cc,
  0x2f2f20697320617320666f6c6c6f77733a00cd,
  0x2f2f00ce,
  0x2f2f20507265763a2020202020202020202020205b502050205020505d00cf,
  0x2f2f20496e7075743a20202020202020202020205b412042204320445d00d0,
  0x2f2f20436f6e6361742d73686966743a202020205b502041204220435d00d1,
  0x2f2f2053756274726163743a20202020202020205b412d5020422d4120432d4220442d435d00d2,
  0x2f2f676f3a6e6f65736361706500d3,
  0x66756e63205075743875696e74333244656c74614661737441736d2800d4,
  0x09696e205b5d75696e7433322c206f75744279746573205b5d627974652c20707265762075696e7433322c00d5,
  0x0973687566666c65202a5b3235365d5b31365d75696e74382c206c656e5461626c65202a5b3235365d75696e74382c00d6,
  0x292028722075696e7431362900d7]

/-- `/repo/pkg/encode/encode_amd64.go`. -/
def encodeGo : List Nat :=
  encodeGo0 ++ (encodeGo1)

/-- `/repo/pkg/decode/decode_amd64.go:1-67`. -/
def decodeGo : List Nat := [
  0x2f2f202b6275696c6420616d6436340001,
  0x0002,
  0x2f2f205061636b616765206465636f64652070726f766964657320616e207838365f363420696d706c656d656e746174696f6e206f662074776f0003,
  0x2f2f2053747265616d205642797465206465636f64696e6720616c676f726974686d732c2061206e6f726d616c206465636f64696e6720617070726f6163680004,
  0x2f2f20616e64206f6e65207468617420696e636f72706f726174657320646966666572656e7469616c20636f64696e672e0005,
  0x7061636b616765206465636f64650006,
  0x0007,
  0x696d706f727420280008,
  0x09226769746875622e636f6d2f7468654d506174656c2f73747265616d76627974652d73696d64676f2f706b672f736861726564220009,
  0x0922676f6c616e672e6f72672f782f7379732f63707522000a,
  0x29000b,
  0x000c,
  0x2f2f204765744d6f646520706572666f726d73206120636865636b20746f20736565206966207468652063757272656e742049534120737570706f727473000d,
  0x2f2f207468652062656c6f77206465636f64696e672066756e63732e000e,
  0x66756e63204765744d6f64652829207368617265642e506572666f726d616e63654d6f6465207b000f,
  0x096966206370752e5838362e486173415658207b0010,
  0x090972657475726e207368617265642e466173740011,
  0x097d0012,
  0x0972657475726e207368617265642e4e6f726d616c0013,
  0x7d0014,
  0x0015,
  0x2f2f204765743875696e743332466173742062696e647320746f206765743875696e7433324661737420776869636820697320696d706c656d656e74656420696e0016,
  0x2f2f20617373656d626c792e0017,
  0x66756e63204765743875696e7433324661737428696e205b5d627974652c206f7574205b5d75696e7433322c206374726c2075696e74313629207b0018,
  0x094765743875696e7433324661737441736d28696e2c206f75742c206374726c2c0019,
  0x09097368617265642e4465636f646553687566666c655461626c652c001a,
  0x09097368617265642e506572436f6e74726f6c4c656e5461626c652c001b,
  0x0929001c,
  0x7d001d,
  0x001e,
  0x2f2f204765743875696e74333244656c7461466173742062696e647320746f206765743875696e74333244656c74614661737420776869636820697320696d706c656d656e746564001f,
  0x2f2f20696e20617373656d626c792e0020,
  0x66756e63204765743875696e74333244656c74614661737428696e205b5d627974652c206f7574205b5d75696e7433322c206374726c2075696e7431362c20707265762075696e74333229207b0021,
  0x094765743875696e74333244656c74614661737441736d280022,
  0x0909696e2c206f75742c206374726c2c20707265762c0023,
  0x09097368617265642e4465636f646553687566666c655461626c652c0024,
  0x09097368617265642e506572436f6e74726f6c4c656e5461626c652c0025,
  0x09290026,
  0x7d0027,
  0x0028,
  0x2f2f204765743875696e7433324661737441736d2075736573207468652070726f76696465642031362d62697420636f6e74726f6c20746f206c6f6164207468650029,
  0x2f2f20617070726f707269617465206465636f64696e672073687566666c65206d61736b7320616e6420706572666f726d7320612073687566666c65002a,
  0x2f2f206f7065726174696f6e206f6e207468652070726f766964656420696e7075742062797465732e205468697320696e20656666656374206465636f6d70726573736573002b,
  0x2f2f2074686520696e70757420627974652073747265616d20746f2075696e743332732e2054686520726573756c74206973207772697474656e20746f002c,
  0x2f2f207468652070726f7669646564206f757470757420736c6963652e002d,
  0x2f2f676f3a6e6f657363617065002e,
  0x66756e63204765743875696e7433324661737441736d28002f,
  0x09696e205b5d627974652c206f7574205b5d75696e7433322c206374726c2075696e7431362c0030,
  0x0973687566666c65202a5b3235365d5b31365d75696e74382c206c656e5461626c65202a5b3235365d75696e74382c0031,
  0x290032,
  0x0033,
  0x2f2f204765743875696e74333244656c74614661737441736d20776f726b732073696d696c61726c7920746f206765743875696e743332466173742077697468207468650034,
  0x2f2f20657863657074696f6e2074686174207072696f7220746f2077726974696e672074686520756e636f6d7072657373656420696e746567657273206f75740035,
  0x2f2f20746f20746865206f757470757420736c6963652c20746865206f726967696e616c2076616c75657320617265207265636f6e73747275637465642066726f6d0036,
  0x2f2f207468652064696666732e20546865206261736963207265636f6e737472756374696f6e20616c676f726974686d20697320617320666f6c6c6f77733a0037,
  0x2f2f0038,
  0x2f2f20496e7075743a20202020202020202020205b412042204320445d0039,
  0x2f2f20496e70757420536869667465643a2020205b2d20412020422020435d003a,
  0x2f2f204164642061626f76652074776f3a2020205b412041422042432043445d003b,
  0x2f2f2041646420507265763a20202020202020205b50412050414220504243205043445d003c,
  0x2f2f20496e70757420536869667465643a2020205b2d202d20412041425d003d,
  0x2f2f2041646420536869667465643a20202020205b50412050414220504142432050414243445d003e,
  0x2f2f676f3a6e6f657363617065003f,
  0x66756e63204765743875696e74333244656c74614661737441736d280040,
  0x09696e205b5d627974652c206f7574205b5d75696e7433322c206374726c2075696e7431362c20707265762075696e7433322c0041,
  0x0973687566666c65202a5b3235365d5b31365d75696e74382c206c656e5461626c65202a5b3235365d75696e74382c0042,
  0x290043]

end SVB.Sources
