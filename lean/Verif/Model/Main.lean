import Verif.Model.Netlink
/-!
# Command `tcp-info` (main.go): the exclusion configuration

The lists of strings are what flag parsing (`flagx.StringArray`, environment variables) leaves in `excludeDstIPs` and `excludeSrcPorts`;
flag parsing is in `Model/Flags.lean`.
-/

namespace TcpInfo

/-- main.go:119-127: add each destination; one that cannot be converted is logged and skipped. -/
def addDstIPs : List (List Char) → ExcludeConfig → ExcludeConfig
  | [], ex => ex
  | d :: ds, ex => addDstIPs ds (addDstIP ex d).2

/-- main.go:128-136: add each port; one that cannot be converted is logged and skipped. -/
def addSrcPorts : List (List Char) → ExcludeConfig → ExcludeConfig
  | [], ex => ex
  | p :: ps, ex => addSrcPorts ps (addSrcPort ex p).2

/-- main.go:115-136: the configuration given to the saver (main.go:143). -/
def excludeConfig (dstIPs srcPorts : List (List Char)) : ExcludeConfig :=
  addSrcPorts srcPorts (addDstIPs dstIPs { localConns := true, srcPorts := none, dstIPs := none })

end TcpInfo
