import Verif.Source.Syntax
/-!
# The source text of atoparser/structs/atop_2_4.py, as syntax trees

Generated by tools/gen_source.py --structs; do not edit.
-/

set_option maxRecDepth 4000

namespace Atop.Src.Text.V2_4

/-- atoparser/structs/atop_2_4.py:63-86 -/
def PerCPU : TopDecl := .class py!"PerCPU" [(.attr (.glob py!"ctypes") py!"Structure")] [
  .assign py!"_fields_" (.list exprs![
    (.tuple exprs![(.const (.str py!"cpunr")), (.attr (.glob py!"ctypes") py!"c_int")]),
    (.tuple exprs![(.const (.str py!"stime")), (.glob py!"count_t")]),
    (.tuple exprs![(.const (.str py!"utime")), (.glob py!"count_t")]),
    (.tuple exprs![(.const (.str py!"ntime")), (.glob py!"count_t")]),
    (.tuple exprs![(.const (.str py!"itime")), (.glob py!"count_t")]),
    (.tuple exprs![(.const (.str py!"wtime")), (.glob py!"count_t")]),
    (.tuple exprs![(.const (.str py!"Itime")), (.glob py!"count_t")]),
    (.tuple exprs![(.const (.str py!"Stime")), (.glob py!"count_t")]),
    (.tuple exprs![(.const (.str py!"steal")), (.glob py!"count_t")]),
    (.tuple exprs![(.const (.str py!"guest")), (.glob py!"count_t")]),
    (.tuple exprs![(.const (.str py!"freqcnt")), (.glob py!"FreqCnt")]),
    (.tuple exprs![(.const (.str py!"instr")), (.glob py!"count_t")]),
    (.tuple exprs![(.const (.str py!"cycle")), (.glob py!"count_t")]),
    (.tuple exprs![(.const (.str py!"cfuture")), (.bin .mul (.glob py!"count_t") (.const (.int 2)))])])]

/-- atoparser/structs/atop_2_4.py:89-109 -/
def CPUStat : TopDecl := .class py!"CPUStat" [(.attr (.glob py!"ctypes") py!"Structure")] [
  .assign py!"_fields_" (.list exprs![
    (.tuple exprs![(.const (.str py!"nrcpu")), (.glob py!"count_t")]),
    (.tuple exprs![(.const (.str py!"devint")), (.glob py!"count_t")]),
    (.tuple exprs![(.const (.str py!"csw")), (.glob py!"count_t")]),
    (.tuple exprs![(.const (.str py!"nprocs")), (.glob py!"count_t")]),
    (.tuple exprs![(.const (.str py!"lavg1")), (.attr (.glob py!"ctypes") py!"c_float")]),
    (.tuple exprs![(.const (.str py!"lavg5")), (.attr (.glob py!"ctypes") py!"c_float")]),
    (.tuple exprs![(.const (.str py!"lavg15")), (.attr (.glob py!"ctypes") py!"c_float")]),
    (.tuple exprs![(.const (.str py!"cfuture")), (.bin .mul (.glob py!"count_t") (.const (.int 4)))]),
    (.tuple exprs![(.const (.str py!"all")), (.glob py!"PerCPU")]),
    (.tuple exprs![(.const (.str py!"cpu")), (.bin .mul (.glob py!"PerCPU") (.glob py!"MAXCPU"))])]),
  .assign py!"fields_limiters" (.dict (.cons (.const (.str py!"cpu")) (.const (.str py!"nrcpu")) <| .nil))]

/-- atoparser/structs/atop_2_4.py:139-152 -/
def PSI : TopDecl := .class py!"PSI" [(.attr (.glob py!"ctypes") py!"Structure")] [
  .assign py!"_fields_" (.list exprs![
    (.tuple exprs![(.const (.str py!"avg10")), (.attr (.glob py!"ctypes") py!"c_float")]),
    (.tuple exprs![(.const (.str py!"avg60")), (.attr (.glob py!"ctypes") py!"c_float")]),
    (.tuple exprs![(.const (.str py!"avg300")), (.attr (.glob py!"ctypes") py!"c_float")]),
    (.tuple exprs![(.const (.str py!"total")), (.glob py!"count_t")])])]

/-- atoparser/structs/atop_2_4.py:155-171 -/
def Pressure : TopDecl := .class py!"Pressure" [(.attr (.glob py!"ctypes") py!"Structure")] [
  .assign py!"_fields_" (.list exprs![
    (.tuple exprs![(.const (.str py!"present")), (.attr (.glob py!"ctypes") py!"c_char")]),
    (.tuple exprs![(.const (.str py!"future")), (.bin .mul (.attr (.glob py!"ctypes") py!"c_char") (.const (.int 3)))]),
    (.tuple exprs![(.const (.str py!"cpusome")), (.glob py!"PSI")]),
    (.tuple exprs![(.const (.str py!"memsome")), (.glob py!"PSI")]),
    (.tuple exprs![(.const (.str py!"memfull")), (.glob py!"PSI")]),
    (.tuple exprs![(.const (.str py!"iosome")), (.glob py!"PSI")]),
    (.tuple exprs![(.const (.str py!"iofull")), (.glob py!"PSI")])])]

/-- atoparser/structs/atop_2_4.py:183-205 -/
def PerGPU : TopDecl := .class py!"PerGPU" [(.attr (.glob py!"ctypes") py!"Structure")] [
  .assign py!"_fields_" (.list exprs![
    (.tuple exprs![(.const (.str py!"taskstats")), (.attr (.glob py!"ctypes") py!"c_char")]),
    (.tuple exprs![(.const (.str py!"nrprocs")), (.attr (.glob py!"ctypes") py!"c_uint8")]),
    (.tuple exprs![(.const (.str py!"type")), (.bin .mul (.attr (.glob py!"ctypes") py!"c_char") (.bin .add (.glob py!"MAXGPUTYPE") (.const (.int 1))))]),
    (.tuple exprs![(.const (.str py!"busid")), (.bin .mul (.attr (.glob py!"ctypes") py!"c_char") (.bin .add (.glob py!"MAXGPUBUS") (.const (.int 1))))]),
    (.tuple exprs![(.const (.str py!"gpunr")), (.attr (.glob py!"ctypes") py!"c_int")]),
    (.tuple exprs![(.const (.str py!"gpupercnow")), (.attr (.glob py!"ctypes") py!"c_int")]),
    (.tuple exprs![(.const (.str py!"mempercnow")), (.attr (.glob py!"ctypes") py!"c_int")]),
    (.tuple exprs![(.const (.str py!"memtotnow")), (.glob py!"count_t")]),
    (.tuple exprs![(.const (.str py!"memusenow")), (.glob py!"count_t")]),
    (.tuple exprs![(.const (.str py!"samples")), (.glob py!"count_t")]),
    (.tuple exprs![(.const (.str py!"gpuperccum")), (.glob py!"count_t")]),
    (.tuple exprs![(.const (.str py!"memperccum")), (.glob py!"count_t")]),
    (.tuple exprs![(.const (.str py!"memusecum")), (.glob py!"count_t")])])]

/-- atoparser/structs/atop_2_4.py:208-222 -/
def GPUStat : TopDecl := .class py!"GPUStat" [(.attr (.glob py!"ctypes") py!"Structure")] [
  .assign py!"_fields_" (.list exprs![
    (.tuple exprs![(.const (.str py!"nrgpus")), (.attr (.glob py!"ctypes") py!"c_int")]),
    (.tuple exprs![(.const (.str py!"gpu")), (.bin .mul (.glob py!"PerGPU") (.glob py!"MAXGPU"))])]),
  .assign py!"fields_limiters" (.dict (.cons (.const (.str py!"gpu")) (.const (.str py!"nrgpus")) <| .nil))]

/-- atoparser/structs/atop_2_4.py:225-242 -/
def PerIFB : TopDecl := .class py!"PerIFB" [(.attr (.glob py!"ctypes") py!"Structure")] [
  .assign py!"_fields_" (.list exprs![
    (.tuple exprs![(.const (.str py!"ibname")), (.bin .mul (.attr (.glob py!"ctypes") py!"c_char") (.glob py!"MAXIBNAME"))]),
    (.tuple exprs![(.const (.str py!"portnr")), (.attr (.glob py!"ctypes") py!"c_short")]),
    (.tuple exprs![(.const (.str py!"lanes")), (.attr (.glob py!"ctypes") py!"c_short")]),
    (.tuple exprs![(.const (.str py!"rate")), (.glob py!"count_t")]),
    (.tuple exprs![(.const (.str py!"rcvb")), (.glob py!"count_t")]),
    (.tuple exprs![(.const (.str py!"sndb")), (.glob py!"count_t")]),
    (.tuple exprs![(.const (.str py!"rcvp")), (.glob py!"count_t")]),
    (.tuple exprs![(.const (.str py!"sndp")), (.glob py!"count_t")])])]

/-- atoparser/structs/atop_2_4.py:245-259 -/
def IFBStat : TopDecl := .class py!"IFBStat" [(.attr (.glob py!"ctypes") py!"Structure")] [
  .assign py!"_fields_" (.list exprs![
    (.tuple exprs![(.const (.str py!"nrports")), (.attr (.glob py!"ctypes") py!"c_int")]),
    (.tuple exprs![(.const (.str py!"ifb")), (.bin .mul (.glob py!"PerIFB") (.glob py!"MAXIBPORT"))])]),
  .assign py!"fields_limiters" (.dict (.cons (.const (.str py!"ifb")) (.const (.str py!"nrports")) <| .nil))]

/-- atoparser/structs/atop_2_4.py:286-305 -/
def SStat : TopDecl := .class py!"SStat" [(.attr (.glob py!"ctypes") py!"Structure")] [
  .assign py!"_fields_" (.list exprs![
    (.tuple exprs![(.const (.str py!"cpu")), (.glob py!"CPUStat")]),
    (.tuple exprs![(.const (.str py!"mem")), (.glob py!"MemStat")]),
    (.tuple exprs![(.const (.str py!"net")), (.glob py!"NETStat")]),
    (.tuple exprs![(.const (.str py!"intf")), (.glob py!"IntfStat")]),
    (.tuple exprs![(.const (.str py!"dsk")), (.glob py!"DSKStat")]),
    (.tuple exprs![(.const (.str py!"nfs")), (.glob py!"NFSStat")]),
    (.tuple exprs![(.const (.str py!"cfs")), (.glob py!"ContStat")]),
    (.tuple exprs![(.const (.str py!"psi")), (.glob py!"Pressure")]),
    (.tuple exprs![(.const (.str py!"gpu")), (.glob py!"GPUStat")]),
    (.tuple exprs![(.const (.str py!"ifb")), (.glob py!"IFBStat")]),
    (.tuple exprs![(.const (.str py!"www")), (.glob py!"WWWStat")])])]

/-- atoparser/structs/atop_2_4.py:323-342 -/
def GPU : TopDecl := .class py!"GPU" [(.attr (.glob py!"ctypes") py!"Structure")] [
  .assign py!"_fields_" (.list exprs![
    (.tuple exprs![(.const (.str py!"state")), (.attr (.glob py!"ctypes") py!"c_char")]),
    (.tuple exprs![(.const (.str py!"cfuture")), (.bin .mul (.attr (.glob py!"ctypes") py!"c_char") (.const (.int 3)))]),
    (.tuple exprs![(.const (.str py!"nrgpus")), (.attr (.glob py!"ctypes") py!"c_short")]),
    (.tuple exprs![(.const (.str py!"gpulist")), (.attr (.glob py!"ctypes") py!"c_int32")]),
    (.tuple exprs![(.const (.str py!"gpubusy")), (.attr (.glob py!"ctypes") py!"c_int")]),
    (.tuple exprs![(.const (.str py!"membusy")), (.attr (.glob py!"ctypes") py!"c_int")]),
    (.tuple exprs![(.const (.str py!"timems")), (.glob py!"count_t")]),
    (.tuple exprs![(.const (.str py!"memnow")), (.glob py!"count_t")]),
    (.tuple exprs![(.const (.str py!"memcum")), (.glob py!"count_t")]),
    (.tuple exprs![(.const (.str py!"sample")), (.glob py!"count_t")])])]

/-- atoparser/structs/atop_2_4.py:345-359 -/
def TStat : TopDecl := .class py!"TStat" [(.attr (.glob py!"ctypes") py!"Structure")] [
  .assign py!"_fields_" (.list exprs![
    (.tuple exprs![(.const (.str py!"gen")), (.glob py!"GEN")]),
    (.tuple exprs![(.const (.str py!"cpu")), (.glob py!"CPU")]),
    (.tuple exprs![(.const (.str py!"dsk")), (.glob py!"DSK")]),
    (.tuple exprs![(.const (.str py!"mem")), (.glob py!"MEM")]),
    (.tuple exprs![(.const (.str py!"net")), (.glob py!"NET")]),
    (.tuple exprs![(.const (.str py!"gpu")), (.glob py!"GPU")])])]

/-- atoparser/structs/atop_2_4.py:362-370 -/
def Header : TopDecl := .class py!"Header" [(.attr (.glob py!"atop_2_3") py!"Header")] [
  .assign py!"supported_version" (.const (.str py!"2.4")),
  .assign py!"Record" (.glob py!"Record"),
  .assign py!"SStat" (.glob py!"SStat"),
  .assign py!"TStat" (.glob py!"TStat"),
  .assign py!"CStat" (.const .none),
  .assign py!"CGChainer" (.const .none)]

/-- atoparser/structs/atop_2_4.py: the statements of the module, in order. -/
def decls : List TopDecl := [
  .plain (.import py!"ctypes"),
  .plain (.fromImport py!"atoparser.structs" py!"atop_1_26"),
  .plain (.fromImport py!"atoparser.structs" py!"atop_2_3"),
  .plain (.fromImport py!"atoparser.structs.shared" py!"count_t"),
  .plain (.assign py!"ACCTACTIVE" (.const (.int 1))),
  .plain (.assign py!"IOSTAT" (.const (.int 4))),
  .plain (.assign py!"NETATOP" (.const (.int 16))),
  .plain (.assign py!"NETATOPD" (.const (.int 32))),
  .plain (.assign py!"DOCKSTAT" (.const (.int 64))),
  .plain (.assign py!"GPUSTAT" (.const (.int 128))),
  .plain (.assign py!"PNAMLEN" (.const (.int 15))),
  .plain (.assign py!"CMDLEN" (.const (.int 255))),
  .plain (.assign py!"MAXCPU" (.const (.int 2048))),
  .plain (.assign py!"MAXDSK" (.const (.int 1024))),
  .plain (.assign py!"MAXLVM" (.const (.int 2048))),
  .plain (.assign py!"MAXMDD" (.const (.int 256))),
  .plain (.assign py!"MAXINTF" (.const (.int 128))),
  .plain (.assign py!"MAXCONTAINER" (.const (.int 128))),
  .plain (.assign py!"MAXNFSMOUNT" (.const (.int 64))),
  .plain (.assign py!"MAXIBPORT" (.const (.int 32))),
  .plain (.assign py!"MAXGPU" (.const (.int 32))),
  .plain (.assign py!"MAXGPUBUS" (.const (.int 12))),
  .plain (.assign py!"MAXGPUTYPE" (.const (.int 12))),
  .plain (.assign py!"MAXDKNAM" (.const (.int 32))),
  .plain (.assign py!"MAXIBNAME" (.const (.int 12))),
  .plain (.assign py!"Record" (.attr (.glob py!"atop_2_3") py!"Record")),
  .plain (.assign py!"MemStat" (.attr (.glob py!"atop_2_3") py!"MemStat")),
  .plain (.assign py!"FreqCnt" (.attr (.glob py!"atop_1_26") py!"FreqCnt")),
  PerCPU,
  CPUStat,
  .plain (.assign py!"PerDSK" (.attr (.glob py!"atop_2_3") py!"PerDSK")),
  .plain (.assign py!"DSKStat" (.attr (.glob py!"atop_2_3") py!"DSKStat")),
  .plain (.assign py!"PerIntf" (.attr (.glob py!"atop_2_3") py!"PerIntf")),
  .plain (.assign py!"IntfStat" (.attr (.glob py!"atop_2_3") py!"IntfStat")),
  .plain (.assign py!"PerNFSMount" (.attr (.glob py!"atop_2_3") py!"PerNFSMount")),
  .plain (.assign py!"Server" (.attr (.glob py!"atop_2_3") py!"Server")),
  .plain (.assign py!"Client" (.attr (.glob py!"atop_2_3") py!"Client")),
  .plain (.assign py!"NFSMounts" (.attr (.glob py!"atop_2_3") py!"NFSMounts")),
  .plain (.assign py!"NFSStat" (.attr (.glob py!"atop_2_3") py!"NFSStat")),
  PSI,
  Pressure,
  .plain (.assign py!"PerContainer" (.attr (.glob py!"atop_2_3") py!"PerContainer")),
  .plain (.assign py!"ContStat" (.attr (.glob py!"atop_2_3") py!"ContStat")),
  .plain (.assign py!"WWWStat" (.attr (.glob py!"atop_1_26") py!"WWWStat")),
  PerGPU,
  GPUStat,
  PerIFB,
  IFBStat,
  .plain (.assign py!"IPv4Stats" (.attr (.glob py!"atop_1_26") py!"IPv4Stats")),
  .plain (.assign py!"ICMPv4Stats" (.attr (.glob py!"atop_1_26") py!"ICMPv4Stats")),
  .plain (.assign py!"UDPv4Stats" (.attr (.glob py!"atop_1_26") py!"UDPv4Stats")),
  .plain (.assign py!"TCPStats" (.attr (.glob py!"atop_1_26") py!"TCPStats")),
  .plain (.assign py!"IPv6Stats" (.attr (.glob py!"atop_1_26") py!"IPv6Stats")),
  .plain (.assign py!"ICMPv6Stats" (.attr (.glob py!"atop_1_26") py!"ICMPv6Stats")),
  .plain (.assign py!"UDPv6Stats" (.attr (.glob py!"atop_1_26") py!"UDPv6Stats")),
  .plain (.assign py!"NETStat" (.attr (.glob py!"atop_1_26") py!"NETStat")),
  SStat,
  .plain (.assign py!"GEN" (.attr (.glob py!"atop_2_3") py!"GEN")),
  .plain (.assign py!"CPU" (.attr (.glob py!"atop_1_26") py!"CPU")),
  .plain (.assign py!"DSK" (.attr (.glob py!"atop_1_26") py!"DSK")),
  .plain (.assign py!"MEM" (.attr (.glob py!"atop_2_3") py!"MEM")),
  .plain (.assign py!"NET" (.attr (.glob py!"atop_2_3") py!"NET")),
  GPU,
  TStat,
  Header]

end Atop.Src.Text.V2_4
