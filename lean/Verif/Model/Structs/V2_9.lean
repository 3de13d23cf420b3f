-- GENERATED by tools/gen_structs.py from /repo/atoparser/structs/atop_2_9.py (read as text). Do not edit.
import Verif.Model.Structs.Shared
import Verif.Model.Structs.V1_26
import Verif.Model.Structs.V2_3
import Verif.Model.Structs.V2_4
import Verif.Model.Structs.V2_7
import Verif.Model.Structs.V2_8

namespace Atop

/-- atoparser/structs/atop_2_9.py:30 -/
abbrev V2_9.ACCTACTIVE : Nat := 1

/-- atoparser/structs/atop_2_9.py:31 -/
abbrev V2_9.IOSTAT : Nat := 4

/-- atoparser/structs/atop_2_9.py:32 -/
abbrev V2_9.NETATOP : Nat := 16

/-- atoparser/structs/atop_2_9.py:33 -/
abbrev V2_9.NETATOPD : Nat := 32

/-- atoparser/structs/atop_2_9.py:34 -/
abbrev V2_9.DOCKSTAT : Nat := 64

/-- atoparser/structs/atop_2_9.py:35 -/
abbrev V2_9.GPUSTAT : Nat := 128

/-- atoparser/structs/atop_2_9.py:36 -/
abbrev V2_9.CGROUPV2 : Nat := 256

/-- atoparser/structs/atop_2_9.py:39 -/
abbrev V2_9.PNAMLEN : Nat := 15

/-- atoparser/structs/atop_2_9.py:40 -/
abbrev V2_9.CMDLEN : Nat := 255

/-- atoparser/structs/atop_2_9.py:41 -/
abbrev V2_9.CGRLEN : Nat := 64

/-- atoparser/structs/atop_2_9.py:44 -/
abbrev V2_9.MAXCPU : Nat := 2048

/-- atoparser/structs/atop_2_9.py:45 -/
abbrev V2_9.MAXDSK : Nat := 1024

/-- atoparser/structs/atop_2_9.py:46 -/
abbrev V2_9.MAXNUMA : Nat := 1024

/-- atoparser/structs/atop_2_9.py:47 -/
abbrev V2_9.MAXLVM : Nat := 2048

/-- atoparser/structs/atop_2_9.py:48 -/
abbrev V2_9.MAXMDD : Nat := 256

/-- atoparser/structs/atop_2_9.py:49 -/
abbrev V2_9.MAXINTF : Nat := 128

/-- atoparser/structs/atop_2_9.py:50 -/
abbrev V2_9.MAXCONTAINER : Nat := 128

/-- atoparser/structs/atop_2_9.py:51 -/
abbrev V2_9.MAXNFSMOUNT : Nat := 64

/-- atoparser/structs/atop_2_9.py:52 -/
abbrev V2_9.MAXIBPORT : Nat := 32

/-- atoparser/structs/atop_2_9.py:53 -/
abbrev V2_9.MAXGPU : Nat := 32

/-- atoparser/structs/atop_2_9.py:54 -/
abbrev V2_9.MAXGPUBUS : Nat := 12

/-- atoparser/structs/atop_2_9.py:55 -/
abbrev V2_9.MAXGPUTYPE : Nat := 12

/-- atoparser/structs/atop_2_9.py:56 -/
abbrev V2_9.MAXLLC : Nat := 256

/-- atoparser/structs/atop_2_9.py:57 -/
abbrev V2_9.MAXDKNAM : Nat := 32

/-- atoparser/structs/atop_2_9.py:58 -/
abbrev V2_9.MAXIBNAME : Nat := 12

/-- atoparser/structs/atop_2_9.py:61 -/
def V2_9.Record : CType := V2_8.Record

/-- atoparser/structs/atop_2_9.py:64 -/
def V2_9.MemStat : CType := V2_8.MemStat

/-- atoparser/structs/atop_2_9.py:67 -/
def V2_9.MemPerNUMA : CType := V2_8.MemPerNUMA

/-- atoparser/structs/atop_2_9.py:70 -/
def V2_9.MemNUMA : CType := V2_8.MemNUMA

/-- atoparser/structs/atop_2_9.py:73 -/
def V2_9.CPUPerNUMA : CType := V2_8.CPUPerNUMA

/-- atoparser/structs/atop_2_9.py:76 -/
def V2_9.CPUNUMA : CType := V2_8.CPUNUMA

/-- atoparser/structs/atop_2_9.py:79 -/
def V2_9.FreqCnt : CType := V1_26.FreqCnt

/-- atoparser/structs/atop_2_9.py:82 -/
def V2_9.PerCPU : CType := V2_7.PerCPU

/-- atoparser/structs/atop_2_9.py:85 -/
def V2_9.CPUStat : CType := V2_7.CPUStat

/-- atoparser/structs/atop_2_9.py:88 -/
def V2_9.PerDSK : CType := V2_8.PerDSK

/-- atoparser/structs/atop_2_9.py:91 -/
def V2_9.DSKStat : CType := V2_8.DSKStat

/-- atoparser/structs/atop_2_9.py:94 -/
def V2_9.PerIntf : CType := V2_3.PerIntf

/-- atoparser/structs/atop_2_9.py:97 -/
def V2_9.IntfStat : CType := V2_3.IntfStat

/-- atoparser/structs/atop_2_9.py:100 -/
def V2_9.PerNFSMount : CType := V2_3.PerNFSMount

/-- atoparser/structs/atop_2_9.py:103 -/
def V2_9.Server : CType := V2_3.Server

/-- atoparser/structs/atop_2_9.py:106 -/
def V2_9.Client : CType := V2_3.Client

/-- atoparser/structs/atop_2_9.py:109 -/
def V2_9.NFSMounts : CType := V2_3.NFSMounts

/-- atoparser/structs/atop_2_9.py:112 -/
def V2_9.NFSStat : CType := V2_3.NFSStat

/-- atoparser/structs/atop_2_9.py:115 -/
def V2_9.PSI : CType := V2_4.PSI

/-- atoparser/structs/atop_2_9.py:118 -/
def V2_9.Pressure : CType := V2_4.Pressure

/-- atoparser/structs/atop_2_9.py:121 -/
def V2_9.PerContainer : CType := V2_3.PerContainer

/-- atoparser/structs/atop_2_9.py:124 -/
def V2_9.ContStat : CType := V2_3.ContStat

/-- atoparser/structs/atop_2_9.py:127 -/
def V2_9.WWWStat : CType := V1_26.WWWStat

/-- atoparser/structs/atop_2_9.py:130 -/
def V2_9.PerGPU : CType := V2_4.PerGPU

/-- atoparser/structs/atop_2_9.py:133 -/
def V2_9.GPUStat : CType := V2_4.GPUStat

/-- atoparser/structs/atop_2_9.py:136 -/
def V2_9.PerIFB : CType := V2_4.PerIFB

/-- atoparser/structs/atop_2_9.py:139 -/
def V2_9.IFBStat : CType := V2_4.IFBStat

/-- atoparser/structs/atop_2_9.py:142 -/
def V2_9.PerLLC : CType := V2_8.PerLLC

/-- atoparser/structs/atop_2_9.py:145 -/
def V2_9.LLCStat : CType := V2_8.LLCStat

/-- atoparser/structs/atop_2_9.py:148 -/
def V2_9.IPv4Stats : CType := V1_26.IPv4Stats

/-- atoparser/structs/atop_2_9.py:151 -/
def V2_9.ICMPv4Stats : CType := V2_8.ICMPv4Stats

/-- atoparser/structs/atop_2_9.py:154 -/
def V2_9.UDPv4Stats : CType := V1_26.UDPv4Stats

/-- atoparser/structs/atop_2_9.py:157 -/
def V2_9.TCPStats : CType := V1_26.TCPStats

/-- atoparser/structs/atop_2_9.py:160 -/
def V2_9.IPv6Stats : CType := V1_26.IPv6Stats

/-- atoparser/structs/atop_2_9.py:163 -/
def V2_9.ICMPv6Stats : CType := V1_26.ICMPv6Stats

/-- atoparser/structs/atop_2_9.py:166 -/
def V2_9.UDPv6Stats : CType := V1_26.UDPv6Stats

/-- atoparser/structs/atop_2_9.py:169 -/
def V2_9.NETStat : CType := V1_26.NETStat

/-- atoparser/structs/atop_2_9.py:172 -/
def V2_9.SStat : CType := V2_8.SStat

/-- atoparser/structs/atop_2_9.py:175 -/
def V2_9.GEN : CType := V2_8.GEN

/-- atoparser/structs/atop_2_9.py:178-205 -/
def V2_9.CPU : CType := .struct py!"atop_2_9.CPU" (.ofList [
    (py!"utime", count_t),
    (py!"stime", count_t),
    (py!"nice", c_int),
    (py!"prio", c_int),
    (py!"rtprio", c_int),
    (py!"policy", c_int),
    (py!"curcpu", c_int),
    (py!"sleepavg", c_int),
    (py!"cgcpuweight", c_int),
    (py!"cgcpumax", c_int),
    (py!"cgcpumaxr", c_int),
    (py!"ifuture", (.array c_int 3)),
    (py!"wchan", (.array c_char 16)),
    (py!"rundelay", count_t),
    (py!"blkdelay", count_t),
    (py!"nvcsw", count_t),
    (py!"nivcsw", count_t),
    (py!"cfuture", (.array count_t 1))]) []

/-- atoparser/structs/atop_2_9.py:208 -/
def V2_9.DSK : CType := V1_26.DSK

/-- atoparser/structs/atop_2_9.py:211 -/
def V2_9.MEM : CType := V2_8.MEM

/-- atoparser/structs/atop_2_9.py:214 -/
def V2_9.NET : CType := V2_3.NET

/-- atoparser/structs/atop_2_9.py:217 -/
def V2_9.GPU : CType := V2_4.GPU

/-- atoparser/structs/atop_2_9.py:220-234 -/
def V2_9.TStat : CType := .struct py!"atop_2_9.TStat" (.ofList [
    (py!"gen", V2_9.GEN),
    (py!"cpu", V2_9.CPU),
    (py!"dsk", V2_9.DSK),
    (py!"mem", V2_9.MEM),
    (py!"net", V2_9.NET),
    (py!"gpu", V2_9.GPU)]) []

/-- atoparser/structs/atop_2_9.py:237-245 -/
def V2_9.Header : HeaderClass where
  supportedVersion := py!"2.9"
  fields := V2_8.Header.fields
  Record := V2_9.Record
  SStat := V2_9.SStat
  TStat := V2_9.TStat
  CStat := none

end Atop
