import Verif.Model.Disk
/-!
# The command is killed, its compressors live on

The compressors are processes of their own (zstd/zstd.go:70 `exec.Command`; nothing ties their life to that of the command). When the command dies (a
signal, a panic, `log.Fatal`) the kernel closes its descriptors. A compressor that has been started reads what is left in its pipe, then end of file.
-/

namespace TcpInfo

/-- zstd/zstd.go:63-88: what is left of a writer when its process is gone: no call is in progress or will be made, the goroutine does not go on and the
three descriptors are closed; pipe, compressor and file remain. A compressor that was not started will not be. -/
def Zstd.ZState.orphan (z : Zstd.ZState) : Zstd.ZState :=
  { z with ops := [], pc := .out, wOpen := false, rOpen := false, fOpen := false, gpc := .finished }

end TcpInfo
