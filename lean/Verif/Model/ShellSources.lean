/-!
# The texts of the shell scripts and of the Makefile of `/repo`

GENERATED by `/verif/scripts/gen_shell.py`, in the format of `Sources.lean`: one number per line of the file, its bytes
followed by two bytes for the line number, read as a big-endian number.  `Verif.Model.Shell` reads them.
-/
set_option autoImplicit false

namespace SVB.Sources

/-- `/repo/tools/generate_and_check.sh`. -/
def checkSh : List Nat := [
  0x23212f7573722f62696e2f656e7620626173680001,  -- #!/usr/bin/env bash
  0x0002,
  0x736574202d650003,  -- set -e
  0x0004,
  0x4245464f52455f444946463d24286769742064696666207c207368613173756d20290005,  -- BEFORE_DIFF=$(git diff | sha1sum )
  0x4245464f52455f5354415455533d242867697420737461747573202d2d706f7263656c61696e207c207368613173756d290006,  -- BEFORE_STATUS=$(git status --porcelain | sha1sum)
  0x0007,
  0x6d616b652067656e65726174650008,  -- make generate
  0x0009,
  0x41465445525f444946463d24286769742064696666207c207368613173756d2029000a,  -- AFTER_DIFF=$(git diff | sha1sum )
  0x41465445525f5354415455533d242867697420737461747573202d2d706f7263656c61696e207c207368613173756d29000b,  -- AFTER_STATUS=$(git status --porcelain | sha1sum)
  0x000c,
  0x6966205b5b20244245464f52455f4449464620213d202441465445525f44494646207c7c20244245464f52455f53544154555320213d202441465445525f535441545553205d5d3b207468656e000d,  -- if [[ $BEFORE_DIFF != $AFTER_DIFF || $BEFORE_STATUS != $AFTER_STATUS ]]; then
  0x20206563686f2022556e737461626c652067656e65726174652e204d616b65207375726520746f2067656e657261746520616e6420636865636b20696e206368616e6765642066696c65732e22000e,  -- echo "Unstable generate. Make sure to generate and check in changed files."
  0x2020657869742031000f,  -- exit 1
  0x66690010]  -- fi

/-- `/repo/tools/update_bench.sh`. -/
def updateSh : List Nat := [
  0x23212f7573722f62696e2f656e7620626173680001,  -- #!/usr/bin/env bash
  0x0002,
  0x736574202d650003,  -- set -e
  0x0004,
  0x544d505f46494c453d24286d6b74656d70290005,  -- TMP_FILE=$(mktemp)
  0x676f2074657374202d62656e6368202e202e2f706b672f2e2e2e207c207465652024544d505f46494c450006,  -- go test -bench . ./pkg/... | tee $TMP_FILE
  0x6361742024544d505f46494c45207c20676f2072756e202453425954455f484f4d452f746f6f6c732f70617273655f616e645f77726974655f62656e63682e676f202d770007,  -- cat $TMP_FILE | go run $SBYTE_HOME/tools/parse_and_write_bench.go -w
  0x726d2024544d505f46494c450008]  -- rm $TMP_FILE

/-- `/repo/Makefile`. -/
def makefile : List Nat := [
  0x0001,
  0x67656e65726174653a0002,  -- generate:
  0x09676f2067656e6572617465202e2f706b672f2e2e2e0003,  -- go generate ./pkg/...
  0x0004,
  0x746573743a0005,  -- test:
  0x09676f2074657374202d76202e2f706b672f2e2e2e0006,  -- go test -v ./pkg/...
  0x0007,
  0x7570646174652d62656e63683a0008,  -- update-bench:
  0x092e2f746f6f6c732f7570646174655f62656e63682e73680009,  -- ./tools/update_bench.sh
  0x000a,
  0x666d74676f3a000b,  -- fmtgo:
  0x0966696e64202e2f706b67202d747970652066202d696e616d6520222a2e676f22207c20786172677320676f666d74202d77000c]  -- find ./pkg -type f -iname "*.go" | xargs gofmt -w

end SVB.Sources
