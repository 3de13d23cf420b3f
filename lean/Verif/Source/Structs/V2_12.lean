import Verif.Source.Syntax
/-!
# The source text of atoparser/structs/atop_2_12.py, as syntax trees

Generated by tools/gen_source.py --structs; do not edit.
-/

set_option maxRecDepth 4000

namespace Atop.Src.Text.V2_12

/-- atoparser/structs/atop_2_12.py:221-234 -/
def Header : TopDecl := .class py!"Header" [(.attr (.glob py!"ctypes") py!"Structure"), (.glob py!"HeaderMixin")] [
  .assign py!"_fields_" (.attr (.attr (.glob py!"atop_2_11") py!"Header") py!"_fields_"),
  .assign py!"supported_version" (.const (.str py!"2.12")),
  .assign py!"Record" (.glob py!"Record"),
  .assign py!"SStat" (.glob py!"SStat"),
  .assign py!"TStat" (.glob py!"TStat"),
  .assign py!"CStat" (.glob py!"CStat"),
  .assign py!"CGChainer" (.glob py!"CGChainer")]

/-- atoparser/structs/atop_2_12.py: the statements of the module, in order. -/
def decls : List TopDecl := [
  .plain (.import py!"ctypes"),
  .plain (.fromImport py!"atoparser.structs" py!"atop_1_26"),
  .plain (.fromImport py!"atoparser.structs" py!"atop_2_3"),
  .plain (.fromImport py!"atoparser.structs" py!"atop_2_4"),
  .plain (.fromImport py!"atoparser.structs" py!"atop_2_7"),
  .plain (.fromImport py!"atoparser.structs" py!"atop_2_8"),
  .plain (.fromImport py!"atoparser.structs" py!"atop_2_10"),
  .plain (.fromImport py!"atoparser.structs" py!"atop_2_11"),
  .plain (.fromImport py!"atoparser.structs.shared" py!"HeaderMixin"),
  .plain (.assign py!"ACCTACTIVE" (.const (.int 1))),
  .plain (.assign py!"IOSTAT" (.const (.int 4))),
  .plain (.assign py!"NETATOP" (.const (.int 16))),
  .plain (.assign py!"NETATOPD" (.const (.int 32))),
  .plain (.assign py!"CONTAINERSTAT" (.const (.int 64))),
  .plain (.assign py!"GPUSTAT" (.const (.int 128))),
  .plain (.assign py!"CGROUPV2" (.const (.int 256))),
  .plain (.assign py!"NETATOPBPF" (.const (.int 4096))),
  .plain (.assign py!"PNAMLEN" (.const (.int 15))),
  .plain (.assign py!"CMDLEN" (.const (.int 255))),
  .plain (.assign py!"CGRLEN" (.const (.int 64))),
  .plain (.assign py!"UTSLEN" (.const (.int 15))),
  .plain (.assign py!"MAXCPU" (.const (.int 2048))),
  .plain (.assign py!"MAXDSK" (.const (.int 1024))),
  .plain (.assign py!"MAXNUMA" (.const (.int 1024))),
  .plain (.assign py!"MAXLVM" (.const (.int 2048))),
  .plain (.assign py!"MAXMDD" (.const (.int 256))),
  .plain (.assign py!"MAXINTF" (.const (.int 128))),
  .plain (.assign py!"MAXCONTAINER" (.const (.int 128))),
  .plain (.assign py!"MAXNFSMOUNT" (.const (.int 64))),
  .plain (.assign py!"MAXIBPORT" (.const (.int 32))),
  .plain (.assign py!"MAXGPU" (.const (.int 32))),
  .plain (.assign py!"MAXGPUBUS" (.const (.int 12))),
  .plain (.assign py!"MAXGPUTYPE" (.const (.int 12))),
  .plain (.assign py!"MAXLLC" (.const (.int 256))),
  .plain (.assign py!"MAXDKNAM" (.const (.int 32))),
  .plain (.assign py!"MAXIBNAME" (.const (.int 12))),
  .plain (.assign py!"Record" (.attr (.glob py!"atop_2_11") py!"Record")),
  .plain (.assign py!"MemStat" (.attr (.glob py!"atop_2_11") py!"MemStat")),
  .plain (.assign py!"MemPerNUMA" (.attr (.glob py!"atop_2_11") py!"MemPerNUMA")),
  .plain (.assign py!"MemNUMA" (.attr (.glob py!"atop_2_11") py!"MemNUMA")),
  .plain (.assign py!"CPUPerNUMA" (.attr (.glob py!"atop_2_11") py!"CPUPerNUMA")),
  .plain (.assign py!"CPUNUMA" (.attr (.glob py!"atop_2_11") py!"CPUNUMA")),
  .plain (.assign py!"FreqCnt" (.attr (.glob py!"atop_1_26") py!"FreqCnt")),
  .plain (.assign py!"PerCPU" (.attr (.glob py!"atop_2_7") py!"PerCPU")),
  .plain (.assign py!"CPUStat" (.attr (.glob py!"atop_2_7") py!"CPUStat")),
  .plain (.assign py!"PerDSK" (.attr (.glob py!"atop_2_8") py!"PerDSK")),
  .plain (.assign py!"DSKStat" (.attr (.glob py!"atop_2_8") py!"DSKStat")),
  .plain (.assign py!"PerIntf" (.attr (.glob py!"atop_2_3") py!"PerIntf")),
  .plain (.assign py!"IntfStat" (.attr (.glob py!"atop_2_3") py!"IntfStat")),
  .plain (.assign py!"PerNFSMount" (.attr (.glob py!"atop_2_3") py!"PerNFSMount")),
  .plain (.assign py!"Server" (.attr (.glob py!"atop_2_3") py!"Server")),
  .plain (.assign py!"Client" (.attr (.glob py!"atop_2_3") py!"Client")),
  .plain (.assign py!"NFSMounts" (.attr (.glob py!"atop_2_3") py!"NFSMounts")),
  .plain (.assign py!"NFSStat" (.attr (.glob py!"atop_2_3") py!"NFSStat")),
  .plain (.assign py!"PSI" (.attr (.glob py!"atop_2_4") py!"PSI")),
  .plain (.assign py!"Pressure" (.attr (.glob py!"atop_2_4") py!"Pressure")),
  .plain (.assign py!"PerContainer" (.attr (.glob py!"atop_2_3") py!"PerContainer")),
  .plain (.assign py!"ContStat" (.attr (.glob py!"atop_2_3") py!"ContStat")),
  .plain (.assign py!"WWWStat" (.attr (.glob py!"atop_1_26") py!"WWWStat")),
  .plain (.assign py!"PerGPU" (.attr (.glob py!"atop_2_4") py!"PerGPU")),
  .plain (.assign py!"GPUStat" (.attr (.glob py!"atop_2_4") py!"GPUStat")),
  .plain (.assign py!"PerIFB" (.attr (.glob py!"atop_2_11") py!"PerIFB")),
  .plain (.assign py!"IFBStat" (.attr (.glob py!"atop_2_11") py!"IFBStat")),
  .plain (.assign py!"PerLLC" (.attr (.glob py!"atop_2_8") py!"PerLLC")),
  .plain (.assign py!"LLCStat" (.attr (.glob py!"atop_2_8") py!"LLCStat")),
  .plain (.assign py!"IPv4Stats" (.attr (.glob py!"atop_1_26") py!"IPv4Stats")),
  .plain (.assign py!"ICMPv4Stats" (.attr (.glob py!"atop_2_8") py!"ICMPv4Stats")),
  .plain (.assign py!"UDPv4Stats" (.attr (.glob py!"atop_1_26") py!"UDPv4Stats")),
  .plain (.assign py!"TCPStats" (.attr (.glob py!"atop_2_10") py!"TCPStats")),
  .plain (.assign py!"IPv6Stats" (.attr (.glob py!"atop_1_26") py!"IPv6Stats")),
  .plain (.assign py!"ICMPv6Stats" (.attr (.glob py!"atop_1_26") py!"ICMPv6Stats")),
  .plain (.assign py!"UDPv6Stats" (.attr (.glob py!"atop_1_26") py!"UDPv6Stats")),
  .plain (.assign py!"NETStat" (.attr (.glob py!"atop_2_10") py!"NETStat")),
  .plain (.assign py!"SStat" (.attr (.glob py!"atop_2_11") py!"SStat")),
  .plain (.assign py!"GEN" (.attr (.glob py!"atop_2_11") py!"GEN")),
  .plain (.assign py!"CPU" (.attr (.glob py!"atop_2_11") py!"CPU")),
  .plain (.assign py!"DSK" (.attr (.glob py!"atop_1_26") py!"DSK")),
  .plain (.assign py!"MEM" (.attr (.glob py!"atop_2_11") py!"MEM")),
  .plain (.assign py!"NET" (.attr (.glob py!"atop_2_3") py!"NET")),
  .plain (.assign py!"GPU" (.attr (.glob py!"atop_2_11") py!"GPU")),
  .plain (.assign py!"TStat" (.attr (.glob py!"atop_2_11") py!"TStat")),
  .plain (.assign py!"CGGen" (.attr (.glob py!"atop_2_11") py!"CGGen")),
  .plain (.assign py!"CGConf" (.attr (.glob py!"atop_2_11") py!"CGConf")),
  .plain (.assign py!"CGCPU" (.attr (.glob py!"atop_2_11") py!"CGCPU")),
  .plain (.assign py!"CGMem" (.attr (.glob py!"atop_2_11") py!"CGMem")),
  .plain (.assign py!"CGDSK" (.attr (.glob py!"atop_2_11") py!"CGDSK")),
  .plain (.assign py!"CStat" (.attr (.glob py!"atop_2_11") py!"CStat")),
  .plain (.assign py!"CGChainer" (.attr (.glob py!"atop_2_11") py!"CGChainer")),
  Header]

end Atop.Src.Text.V2_12
