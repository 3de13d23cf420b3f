-- GENERATED by tools/gen_structs.py from /repo/atoparser/structs/atop_2_6.py (read as text). Do not edit.
import Verif.Model.Structs.Shared
import Verif.Model.Structs.V1_26
import Verif.Model.Structs.V2_3
import Verif.Model.Structs.V2_4

namespace Atop

/-- atoparser/structs/atop_2_6.py:28 -/
abbrev V2_6.ACCTACTIVE : Nat := 1

/-- atoparser/structs/atop_2_6.py:29 -/
abbrev V2_6.IOSTAT : Nat := 4

/-- atoparser/structs/atop_2_6.py:30 -/
abbrev V2_6.NETATOP : Nat := 16

/-- atoparser/structs/atop_2_6.py:31 -/
abbrev V2_6.NETATOPD : Nat := 32

/-- atoparser/structs/atop_2_6.py:32 -/
abbrev V2_6.DOCKSTAT : Nat := 64

/-- atoparser/structs/atop_2_6.py:33 -/
abbrev V2_6.GPUSTAT : Nat := 128

/-- atoparser/structs/atop_2_6.py:36 -/
abbrev V2_6.PNAMLEN : Nat := 15

/-- atoparser/structs/atop_2_6.py:37 -/
abbrev V2_6.CMDLEN : Nat := 255

/-- atoparser/structs/atop_2_6.py:40 -/
abbrev V2_6.MAXCPU : Nat := 2048

/-- atoparser/structs/atop_2_6.py:41 -/
abbrev V2_6.MAXDSK : Nat := 1024

/-- atoparser/structs/atop_2_6.py:42 -/
abbrev V2_6.MAXLVM : Nat := 2048

/-- atoparser/structs/atop_2_6.py:43 -/
abbrev V2_6.MAXMDD : Nat := 256

/-- atoparser/structs/atop_2_6.py:44 -/
abbrev V2_6.MAXINTF : Nat := 128

/-- atoparser/structs/atop_2_6.py:45 -/
abbrev V2_6.MAXCONTAINER : Nat := 128

/-- atoparser/structs/atop_2_6.py:46 -/
abbrev V2_6.MAXNFSMOUNT : Nat := 64

/-- atoparser/structs/atop_2_6.py:47 -/
abbrev V2_6.MAXIBPORT : Nat := 32

/-- atoparser/structs/atop_2_6.py:48 -/
abbrev V2_6.MAXGPU : Nat := 32

/-- atoparser/structs/atop_2_6.py:49 -/
abbrev V2_6.MAXGPUBUS : Nat := 12

/-- atoparser/structs/atop_2_6.py:50 -/
abbrev V2_6.MAXGPUTYPE : Nat := 12

/-- atoparser/structs/atop_2_6.py:51 -/
abbrev V2_6.MAXDKNAM : Nat := 32

/-- atoparser/structs/atop_2_6.py:52 -/
abbrev V2_6.MAXIBNAME : Nat := 12

/-- atoparser/structs/atop_2_6.py:55 -/
def V2_6.Record : CType := V2_3.Record

/-- atoparser/structs/atop_2_6.py:58-93 -/
def V2_6.MemStat : CType := .struct py!"atop_2_6.MemStat" (.ofList [
    (py!"physmem", count_t),
    (py!"freemem", count_t),
    (py!"buffermem", count_t),
    (py!"slabmem", count_t),
    (py!"cachemem", count_t),
    (py!"cachedrt", count_t),
    (py!"totswap", count_t),
    (py!"freeswap", count_t),
    (py!"pgscans", count_t),
    (py!"pgsteal", count_t),
    (py!"allocstall", count_t),
    (py!"swouts", count_t),
    (py!"swins", count_t),
    (py!"commitlim", count_t),
    (py!"committed", count_t),
    (py!"shmem", count_t),
    (py!"shmrss", count_t),
    (py!"shmswp", count_t),
    (py!"slabreclaim", count_t),
    (py!"tothugepage", count_t),
    (py!"freehugepage", count_t),
    (py!"hugepagesz", count_t),
    (py!"vmwballoon", count_t),
    (py!"zfsarcsize", count_t),
    (py!"swapcached", count_t),
    (py!"cfuture", (.array count_t 6))]) []

/-- atoparser/structs/atop_2_6.py:96 -/
def V2_6.FreqCnt : CType := V1_26.FreqCnt

/-- atoparser/structs/atop_2_6.py:99-122 -/
def V2_6.PerCPU : CType := .struct py!"atop_2_6.PerCPU" (.ofList [
    (py!"cpunr", c_int),
    (py!"stime", count_t),
    (py!"utime", count_t),
    (py!"ntime", count_t),
    (py!"itime", count_t),
    (py!"wtime", count_t),
    (py!"Itime", count_t),
    (py!"Stime", count_t),
    (py!"steal", count_t),
    (py!"guest", count_t),
    (py!"freqcnt", V2_6.FreqCnt),
    (py!"instr", count_t),
    (py!"cycle", count_t),
    (py!"cfuture", (.array count_t 2))]) []

/-- atoparser/structs/atop_2_6.py:125-145 -/
def V2_6.CPUStat : CType := .struct py!"atop_2_6.CPUStat" (.ofList [
    (py!"nrcpu", count_t),
    (py!"devint", count_t),
    (py!"csw", count_t),
    (py!"nprocs", count_t),
    (py!"lavg1", c_float),
    (py!"lavg5", c_float),
    (py!"lavg15", c_float),
    (py!"cfuture", (.array count_t 4)),
    (py!"all", V2_6.PerCPU),
    (py!"cpu", (.array V2_6.PerCPU V2_6.MAXCPU))]) [(py!"cpu", py!"nrcpu")]

/-- atoparser/structs/atop_2_6.py:148 -/
def V2_6.PerDSK : CType := V2_3.PerDSK

/-- atoparser/structs/atop_2_6.py:151 -/
def V2_6.DSKStat : CType := V2_3.DSKStat

/-- atoparser/structs/atop_2_6.py:154 -/
def V2_6.PerIntf : CType := V2_3.PerIntf

/-- atoparser/structs/atop_2_6.py:157 -/
def V2_6.IntfStat : CType := V2_3.IntfStat

/-- atoparser/structs/atop_2_6.py:160 -/
def V2_6.PerNFSMount : CType := V2_3.PerNFSMount

/-- atoparser/structs/atop_2_6.py:163 -/
def V2_6.Server : CType := V2_3.Server

/-- atoparser/structs/atop_2_6.py:166 -/
def V2_6.Client : CType := V2_3.Client

/-- atoparser/structs/atop_2_6.py:169 -/
def V2_6.NFSMounts : CType := V2_3.NFSMounts

/-- atoparser/structs/atop_2_6.py:172 -/
def V2_6.NFSStat : CType := V2_3.NFSStat

/-- atoparser/structs/atop_2_6.py:175 -/
def V2_6.PSI : CType := V2_4.PSI

/-- atoparser/structs/atop_2_6.py:178 -/
def V2_6.Pressure : CType := V2_4.Pressure

/-- atoparser/structs/atop_2_6.py:181 -/
def V2_6.PerContainer : CType := V2_3.PerContainer

/-- atoparser/structs/atop_2_6.py:184 -/
def V2_6.ContStat : CType := V2_3.ContStat

/-- atoparser/structs/atop_2_6.py:187 -/
def V2_6.WWWStat : CType := V1_26.WWWStat

/-- atoparser/structs/atop_2_6.py:190 -/
def V2_6.PerGPU : CType := V2_4.PerGPU

/-- atoparser/structs/atop_2_6.py:193 -/
def V2_6.GPUStat : CType := V2_4.GPUStat

/-- atoparser/structs/atop_2_6.py:196 -/
def V2_6.PerIFB : CType := V2_4.PerIFB

/-- atoparser/structs/atop_2_6.py:199 -/
def V2_6.IFBStat : CType := V2_4.IFBStat

/-- atoparser/structs/atop_2_6.py:202 -/
def V2_6.IPv4Stats : CType := V1_26.IPv4Stats

/-- atoparser/structs/atop_2_6.py:205 -/
def V2_6.ICMPv4Stats : CType := V1_26.ICMPv4Stats

/-- atoparser/structs/atop_2_6.py:208 -/
def V2_6.UDPv4Stats : CType := V1_26.UDPv4Stats

/-- atoparser/structs/atop_2_6.py:211 -/
def V2_6.TCPStats : CType := V1_26.TCPStats

/-- atoparser/structs/atop_2_6.py:214 -/
def V2_6.IPv6Stats : CType := V1_26.IPv6Stats

/-- atoparser/structs/atop_2_6.py:217 -/
def V2_6.ICMPv6Stats : CType := V1_26.ICMPv6Stats

/-- atoparser/structs/atop_2_6.py:220 -/
def V2_6.UDPv6Stats : CType := V1_26.UDPv6Stats

/-- atoparser/structs/atop_2_6.py:223 -/
def V2_6.NETStat : CType := V1_26.NETStat

/-- atoparser/structs/atop_2_6.py:226-245 -/
def V2_6.SStat : CType := .struct py!"atop_2_6.SStat" (.ofList [
    (py!"cpu", V2_6.CPUStat),
    (py!"mem", V2_6.MemStat),
    (py!"net", V2_6.NETStat),
    (py!"intf", V2_6.IntfStat),
    (py!"dsk", V2_6.DSKStat),
    (py!"nfs", V2_6.NFSStat),
    (py!"cfs", V2_6.ContStat),
    (py!"psi", V2_6.Pressure),
    (py!"gpu", V2_6.GPUStat),
    (py!"ifb", V2_6.IFBStat),
    (py!"www", V2_6.WWWStat)]) []

/-- atoparser/structs/atop_2_6.py:248 -/
def V2_6.GEN : CType := V2_3.GEN

/-- atoparser/structs/atop_2_6.py:251-272 -/
def V2_6.CPU : CType := .struct py!"atop_2_6.CPU" (.ofList [
    (py!"utime", count_t),
    (py!"stime", count_t),
    (py!"nice", c_int),
    (py!"prio", c_int),
    (py!"rtprio", c_int),
    (py!"policy", c_int),
    (py!"curcpu", c_int),
    (py!"sleepavg", c_int),
    (py!"ifuture", (.array c_int 4)),
    (py!"wchan", (.array c_char 16)),
    (py!"rundelay", count_t),
    (py!"cfuture", count_t)]) []

/-- atoparser/structs/atop_2_6.py:275 -/
def V2_6.DSK : CType := V1_26.DSK

/-- atoparser/structs/atop_2_6.py:278-301 -/
def V2_6.MEM : CType := .struct py!"atop_2_6.MEM" (.ofList [
    (py!"minflt", count_t),
    (py!"majflt", count_t),
    (py!"vexec", count_t),
    (py!"vmem", count_t),
    (py!"rmem", count_t),
    (py!"pmem", count_t),
    (py!"vgrow", count_t),
    (py!"rgrow", count_t),
    (py!"vdata", count_t),
    (py!"vstack", count_t),
    (py!"vlibs", count_t),
    (py!"vswap", count_t),
    (py!"vlock", count_t),
    (py!"cfuture", (.array count_t 3))]) []

/-- atoparser/structs/atop_2_6.py:304 -/
def V2_6.NET : CType := V2_3.NET

/-- atoparser/structs/atop_2_6.py:307 -/
def V2_6.GPU : CType := V2_4.GPU

/-- atoparser/structs/atop_2_6.py:310-324 -/
def V2_6.TStat : CType := .struct py!"atop_2_6.TStat" (.ofList [
    (py!"gen", V2_6.GEN),
    (py!"cpu", V2_6.CPU),
    (py!"dsk", V2_6.DSK),
    (py!"mem", V2_6.MEM),
    (py!"net", V2_6.NET),
    (py!"gpu", V2_6.GPU)]) []

/-- atoparser/structs/atop_2_6.py:327-335 -/
def V2_6.Header : HeaderClass where
  supportedVersion := py!"2.6"
  fields := V2_3.Header.fields
  Record := V2_6.Record
  SStat := V2_6.SStat
  TStat := V2_6.TStat
  CStat := none

end Atop
