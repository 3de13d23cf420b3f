-- GENERATED by tools/gen_structs.py from /repo/atoparser/structs/atop_2_4.py (read as text). Do not edit.
import Verif.Model.Structs.Shared
import Verif.Model.Structs.V1_26
import Verif.Model.Structs.V2_3

namespace Atop

/-- atoparser/structs/atop_2_4.py:27 -/
abbrev V2_4.ACCTACTIVE : Nat := 1

/-- atoparser/structs/atop_2_4.py:28 -/
abbrev V2_4.IOSTAT : Nat := 4

/-- atoparser/structs/atop_2_4.py:29 -/
abbrev V2_4.NETATOP : Nat := 16

/-- atoparser/structs/atop_2_4.py:30 -/
abbrev V2_4.NETATOPD : Nat := 32

/-- atoparser/structs/atop_2_4.py:31 -/
abbrev V2_4.DOCKSTAT : Nat := 64

/-- atoparser/structs/atop_2_4.py:32 -/
abbrev V2_4.GPUSTAT : Nat := 128

/-- atoparser/structs/atop_2_4.py:35 -/
abbrev V2_4.PNAMLEN : Nat := 15

/-- atoparser/structs/atop_2_4.py:36 -/
abbrev V2_4.CMDLEN : Nat := 255

/-- atoparser/structs/atop_2_4.py:39 -/
abbrev V2_4.MAXCPU : Nat := 2048

/-- atoparser/structs/atop_2_4.py:40 -/
abbrev V2_4.MAXDSK : Nat := 1024

/-- atoparser/structs/atop_2_4.py:41 -/
abbrev V2_4.MAXLVM : Nat := 2048

/-- atoparser/structs/atop_2_4.py:42 -/
abbrev V2_4.MAXMDD : Nat := 256

/-- atoparser/structs/atop_2_4.py:43 -/
abbrev V2_4.MAXINTF : Nat := 128

/-- atoparser/structs/atop_2_4.py:44 -/
abbrev V2_4.MAXCONTAINER : Nat := 128

/-- atoparser/structs/atop_2_4.py:45 -/
abbrev V2_4.MAXNFSMOUNT : Nat := 64

/-- atoparser/structs/atop_2_4.py:46 -/
abbrev V2_4.MAXIBPORT : Nat := 32

/-- atoparser/structs/atop_2_4.py:47 -/
abbrev V2_4.MAXGPU : Nat := 32

/-- atoparser/structs/atop_2_4.py:48 -/
abbrev V2_4.MAXGPUBUS : Nat := 12

/-- atoparser/structs/atop_2_4.py:49 -/
abbrev V2_4.MAXGPUTYPE : Nat := 12

/-- atoparser/structs/atop_2_4.py:50 -/
abbrev V2_4.MAXDKNAM : Nat := 32

/-- atoparser/structs/atop_2_4.py:51 -/
abbrev V2_4.MAXIBNAME : Nat := 12

/-- atoparser/structs/atop_2_4.py:54 -/
def V2_4.Record : CType := V2_3.Record

/-- atoparser/structs/atop_2_4.py:57 -/
def V2_4.MemStat : CType := V2_3.MemStat

/-- atoparser/structs/atop_2_4.py:60 -/
def V2_4.FreqCnt : CType := V1_26.FreqCnt

/-- atoparser/structs/atop_2_4.py:63-86 -/
def V2_4.PerCPU : CType := .struct py!"atop_2_4.PerCPU" (.ofList [
    (py!"cpunr", c_int),
    (py!"stime", count_t),
    (py!"utime", count_t),
    (py!"ntime", count_t),
    (py!"itime", count_t),
    (py!"wtime", count_t),
    (py!"Itime", count_t),
    (py!"Stime", count_t),
    (py!"steal", count_t),
    (py!"guest", count_t),
    (py!"freqcnt", V2_4.FreqCnt),
    (py!"instr", count_t),
    (py!"cycle", count_t),
    (py!"cfuture", (.array count_t 2))]) []

/-- atoparser/structs/atop_2_4.py:89-109 -/
def V2_4.CPUStat : CType := .struct py!"atop_2_4.CPUStat" (.ofList [
    (py!"nrcpu", count_t),
    (py!"devint", count_t),
    (py!"csw", count_t),
    (py!"nprocs", count_t),
    (py!"lavg1", c_float),
    (py!"lavg5", c_float),
    (py!"lavg15", c_float),
    (py!"cfuture", (.array count_t 4)),
    (py!"all", V2_4.PerCPU),
    (py!"cpu", (.array V2_4.PerCPU V2_4.MAXCPU))]) [(py!"cpu", py!"nrcpu")]

/-- atoparser/structs/atop_2_4.py:112 -/
def V2_4.PerDSK : CType := V2_3.PerDSK

/-- atoparser/structs/atop_2_4.py:115 -/
def V2_4.DSKStat : CType := V2_3.DSKStat

/-- atoparser/structs/atop_2_4.py:118 -/
def V2_4.PerIntf : CType := V2_3.PerIntf

/-- atoparser/structs/atop_2_4.py:121 -/
def V2_4.IntfStat : CType := V2_3.IntfStat

/-- atoparser/structs/atop_2_4.py:124 -/
def V2_4.PerNFSMount : CType := V2_3.PerNFSMount

/-- atoparser/structs/atop_2_4.py:127 -/
def V2_4.Server : CType := V2_3.Server

/-- atoparser/structs/atop_2_4.py:130 -/
def V2_4.Client : CType := V2_3.Client

/-- atoparser/structs/atop_2_4.py:133 -/
def V2_4.NFSMounts : CType := V2_3.NFSMounts

/-- atoparser/structs/atop_2_4.py:136 -/
def V2_4.NFSStat : CType := V2_3.NFSStat

/-- atoparser/structs/atop_2_4.py:139-152 -/
def V2_4.PSI : CType := .struct py!"atop_2_4.PSI" (.ofList [
    (py!"avg10", c_float),
    (py!"avg60", c_float),
    (py!"avg300", c_float),
    (py!"total", count_t)]) []

/-- atoparser/structs/atop_2_4.py:155-171 -/
def V2_4.Pressure : CType := .struct py!"atop_2_4.Pressure" (.ofList [
    (py!"present", c_char),
    (py!"future", (.array c_char 3)),
    (py!"cpusome", V2_4.PSI),
    (py!"memsome", V2_4.PSI),
    (py!"memfull", V2_4.PSI),
    (py!"iosome", V2_4.PSI),
    (py!"iofull", V2_4.PSI)]) []

/-- atoparser/structs/atop_2_4.py:174 -/
def V2_4.PerContainer : CType := V2_3.PerContainer

/-- atoparser/structs/atop_2_4.py:177 -/
def V2_4.ContStat : CType := V2_3.ContStat

/-- atoparser/structs/atop_2_4.py:180 -/
def V2_4.WWWStat : CType := V1_26.WWWStat

/-- atoparser/structs/atop_2_4.py:183-205 -/
def V2_4.PerGPU : CType := .struct py!"atop_2_4.PerGPU" (.ofList [
    (py!"taskstats", c_char),
    (py!"nrprocs", c_uint8),
    (py!"type", (.array c_char (V2_4.MAXGPUTYPE + 1))),
    (py!"busid", (.array c_char (V2_4.MAXGPUBUS + 1))),
    (py!"gpunr", c_int),
    (py!"gpupercnow", c_int),
    (py!"mempercnow", c_int),
    (py!"memtotnow", count_t),
    (py!"memusenow", count_t),
    (py!"samples", count_t),
    (py!"gpuperccum", count_t),
    (py!"memperccum", count_t),
    (py!"memusecum", count_t)]) []

/-- atoparser/structs/atop_2_4.py:208-222 -/
def V2_4.GPUStat : CType := .struct py!"atop_2_4.GPUStat" (.ofList [
    (py!"nrgpus", c_int),
    (py!"gpu", (.array V2_4.PerGPU V2_4.MAXGPU))]) [(py!"gpu", py!"nrgpus")]

/-- atoparser/structs/atop_2_4.py:225-242 -/
def V2_4.PerIFB : CType := .struct py!"atop_2_4.PerIFB" (.ofList [
    (py!"ibname", (.array c_char V2_4.MAXIBNAME)),
    (py!"portnr", c_short),
    (py!"lanes", c_short),
    (py!"rate", count_t),
    (py!"rcvb", count_t),
    (py!"sndb", count_t),
    (py!"rcvp", count_t),
    (py!"sndp", count_t)]) []

/-- atoparser/structs/atop_2_4.py:245-259 -/
def V2_4.IFBStat : CType := .struct py!"atop_2_4.IFBStat" (.ofList [
    (py!"nrports", c_int),
    (py!"ifb", (.array V2_4.PerIFB V2_4.MAXIBPORT))]) [(py!"ifb", py!"nrports")]

/-- atoparser/structs/atop_2_4.py:262 -/
def V2_4.IPv4Stats : CType := V1_26.IPv4Stats

/-- atoparser/structs/atop_2_4.py:265 -/
def V2_4.ICMPv4Stats : CType := V1_26.ICMPv4Stats

/-- atoparser/structs/atop_2_4.py:268 -/
def V2_4.UDPv4Stats : CType := V1_26.UDPv4Stats

/-- atoparser/structs/atop_2_4.py:271 -/
def V2_4.TCPStats : CType := V1_26.TCPStats

/-- atoparser/structs/atop_2_4.py:274 -/
def V2_4.IPv6Stats : CType := V1_26.IPv6Stats

/-- atoparser/structs/atop_2_4.py:277 -/
def V2_4.ICMPv6Stats : CType := V1_26.ICMPv6Stats

/-- atoparser/structs/atop_2_4.py:280 -/
def V2_4.UDPv6Stats : CType := V1_26.UDPv6Stats

/-- atoparser/structs/atop_2_4.py:283 -/
def V2_4.NETStat : CType := V1_26.NETStat

/-- atoparser/structs/atop_2_4.py:286-305 -/
def V2_4.SStat : CType := .struct py!"atop_2_4.SStat" (.ofList [
    (py!"cpu", V2_4.CPUStat),
    (py!"mem", V2_4.MemStat),
    (py!"net", V2_4.NETStat),
    (py!"intf", V2_4.IntfStat),
    (py!"dsk", V2_4.DSKStat),
    (py!"nfs", V2_4.NFSStat),
    (py!"cfs", V2_4.ContStat),
    (py!"psi", V2_4.Pressure),
    (py!"gpu", V2_4.GPUStat),
    (py!"ifb", V2_4.IFBStat),
    (py!"www", V2_4.WWWStat)]) []

/-- atoparser/structs/atop_2_4.py:308 -/
def V2_4.GEN : CType := V2_3.GEN

/-- atoparser/structs/atop_2_4.py:311 -/
def V2_4.CPU : CType := V1_26.CPU

/-- atoparser/structs/atop_2_4.py:314 -/
def V2_4.DSK : CType := V1_26.DSK

/-- atoparser/structs/atop_2_4.py:317 -/
def V2_4.MEM : CType := V2_3.MEM

/-- atoparser/structs/atop_2_4.py:320 -/
def V2_4.NET : CType := V2_3.NET

/-- atoparser/structs/atop_2_4.py:323-342 -/
def V2_4.GPU : CType := .struct py!"atop_2_4.GPU" (.ofList [
    (py!"state", c_char),
    (py!"cfuture", (.array c_char 3)),
    (py!"nrgpus", c_short),
    (py!"gpulist", c_int32),
    (py!"gpubusy", c_int),
    (py!"membusy", c_int),
    (py!"timems", count_t),
    (py!"memnow", count_t),
    (py!"memcum", count_t),
    (py!"sample", count_t)]) []

/-- atoparser/structs/atop_2_4.py:345-359 -/
def V2_4.TStat : CType := .struct py!"atop_2_4.TStat" (.ofList [
    (py!"gen", V2_4.GEN),
    (py!"cpu", V2_4.CPU),
    (py!"dsk", V2_4.DSK),
    (py!"mem", V2_4.MEM),
    (py!"net", V2_4.NET),
    (py!"gpu", V2_4.GPU)]) []

/-- atoparser/structs/atop_2_4.py:362-370 -/
def V2_4.Header : HeaderClass where
  supportedVersion := py!"2.4"
  fields := V2_3.Header.fields
  Record := V2_4.Record
  SStat := V2_4.SStat
  TStat := V2_4.TStat
  CStat := none

end Atop
