-- GENERATED by tools/gen_structs.py from /repo/atoparser/structs/atop_2_7.py (read as text). Do not edit.
import Verif.Model.Structs.Shared
import Verif.Model.Structs.V1_26
import Verif.Model.Structs.V2_3
import Verif.Model.Structs.V2_4
import Verif.Model.Structs.V2_6

namespace Atop

/-- atoparser/structs/atop_2_7.py:29 -/
abbrev V2_7.ACCTACTIVE : Nat := 1

/-- atoparser/structs/atop_2_7.py:30 -/
abbrev V2_7.IOSTAT : Nat := 4

/-- atoparser/structs/atop_2_7.py:31 -/
abbrev V2_7.NETATOP : Nat := 16

/-- atoparser/structs/atop_2_7.py:32 -/
abbrev V2_7.NETATOPD : Nat := 32

/-- atoparser/structs/atop_2_7.py:33 -/
abbrev V2_7.DOCKSTAT : Nat := 64

/-- atoparser/structs/atop_2_7.py:34 -/
abbrev V2_7.GPUSTAT : Nat := 128

/-- atoparser/structs/atop_2_7.py:37 -/
abbrev V2_7.PNAMLEN : Nat := 15

/-- atoparser/structs/atop_2_7.py:38 -/
abbrev V2_7.CMDLEN : Nat := 255

/-- atoparser/structs/atop_2_7.py:41 -/
abbrev V2_7.MAXCPU : Nat := 2048

/-- atoparser/structs/atop_2_7.py:42 -/
abbrev V2_7.MAXDSK : Nat := 1024

/-- atoparser/structs/atop_2_7.py:43 -/
abbrev V2_7.MAXNUMA : Nat := 1024

/-- atoparser/structs/atop_2_7.py:44 -/
abbrev V2_7.MAXLVM : Nat := 2048

/-- atoparser/structs/atop_2_7.py:45 -/
abbrev V2_7.MAXMDD : Nat := 256

/-- atoparser/structs/atop_2_7.py:46 -/
abbrev V2_7.MAXINTF : Nat := 128

/-- atoparser/structs/atop_2_7.py:47 -/
abbrev V2_7.MAXCONTAINER : Nat := 128

/-- atoparser/structs/atop_2_7.py:48 -/
abbrev V2_7.MAXNFSMOUNT : Nat := 64

/-- atoparser/structs/atop_2_7.py:49 -/
abbrev V2_7.MAXIBPORT : Nat := 32

/-- atoparser/structs/atop_2_7.py:50 -/
abbrev V2_7.MAXGPU : Nat := 32

/-- atoparser/structs/atop_2_7.py:51 -/
abbrev V2_7.MAXGPUBUS : Nat := 12

/-- atoparser/structs/atop_2_7.py:52 -/
abbrev V2_7.MAXGPUTYPE : Nat := 12

/-- atoparser/structs/atop_2_7.py:53 -/
abbrev V2_7.MAXDKNAM : Nat := 32

/-- atoparser/structs/atop_2_7.py:54 -/
abbrev V2_7.MAXIBNAME : Nat := 12

/-- atoparser/structs/atop_2_7.py:57 -/
def V2_7.Record : CType := V2_3.Record

/-- atoparser/structs/atop_2_7.py:60-103 -/
def V2_7.MemStat : CType := .struct py!"atop_2_7.MemStat" (.ofList [
    (py!"physmem", count_t),
    (py!"freemem", count_t),
    (py!"buffermem", count_t),
    (py!"slabmem", count_t),
    (py!"cachemem", count_t),
    (py!"cachedrt", count_t),
    (py!"totswap", count_t),
    (py!"freeswap", count_t),
    (py!"pgscans", count_t),
    (py!"pgsteal", count_t),
    (py!"allocstall", count_t),
    (py!"swouts", count_t),
    (py!"swins", count_t),
    (py!"commitlim", count_t),
    (py!"committed", count_t),
    (py!"shmem", count_t),
    (py!"shmrss", count_t),
    (py!"shmswp", count_t),
    (py!"slabreclaim", count_t),
    (py!"tothugepage", count_t),
    (py!"freehugepage", count_t),
    (py!"hugepagesz", count_t),
    (py!"vmwballoon", count_t),
    (py!"zfsarcsize", count_t),
    (py!"swapcached", count_t),
    (py!"ksmsharing", count_t),
    (py!"ksmshared", count_t),
    (py!"zswstored", count_t),
    (py!"zswtotpool", count_t),
    (py!"oomkills", count_t),
    (py!"compactstall", count_t),
    (py!"pgmigrate", count_t),
    (py!"numamigrate", count_t),
    (py!"cfuture", (.array count_t 9))]) []

/-- atoparser/structs/atop_2_7.py:106-126 -/
def V2_7.MemPerNUMA : CType := .struct py!"atop_2_7.MemPerNUMA" (.ofList [
    (py!"frag", c_float),
    (py!"totmem", count_t),
    (py!"freemem", count_t),
    (py!"filepage", count_t),
    (py!"dirtymem", count_t),
    (py!"slabmem", count_t),
    (py!"slabreclaim", count_t),
    (py!"active", count_t),
    (py!"inactive", count_t),
    (py!"shmem", count_t),
    (py!"tothp", count_t)]) []

/-- atoparser/structs/atop_2_7.py:129-141 -/
def V2_7.MemNUMA : CType := .struct py!"atop_2_7.MemNUMA" (.ofList [
    (py!"nrnuma", count_t),
    (py!"numa", (.array V2_7.MemPerNUMA V2_7.MAXNUMA))]) [(py!"numa", py!"nrnuma")]

/-- atoparser/structs/atop_2_7.py:144-163 -/
def V2_7.CPUPerNUMA : CType := .struct py!"atop_2_7.CPUPerNUMA" (.ofList [
    (py!"nrcpu", count_t),
    (py!"stime", count_t),
    (py!"utime", count_t),
    (py!"ntime", count_t),
    (py!"itime", count_t),
    (py!"wtime", count_t),
    (py!"Itime", count_t),
    (py!"Stime", count_t),
    (py!"steal", count_t),
    (py!"guest", count_t)]) []

/-- atoparser/structs/atop_2_7.py:166-178 -/
def V2_7.CPUNUMA : CType := .struct py!"atop_2_7.CPUNUMA" (.ofList [
    (py!"nrnuma", count_t),
    (py!"numa", (.array V2_7.CPUPerNUMA V2_7.MAXNUMA))]) [(py!"numa", py!"nrnuma")]

/-- atoparser/structs/atop_2_7.py:181 -/
def V2_7.FreqCnt : CType := V1_26.FreqCnt

/-- atoparser/structs/atop_2_7.py:184-207 -/
def V2_7.PerCPU : CType := .struct py!"atop_2_7.PerCPU" (.ofList [
    (py!"cpunr", c_int),
    (py!"stime", count_t),
    (py!"utime", count_t),
    (py!"ntime", count_t),
    (py!"itime", count_t),
    (py!"wtime", count_t),
    (py!"Itime", count_t),
    (py!"Stime", count_t),
    (py!"steal", count_t),
    (py!"guest", count_t),
    (py!"freqcnt", V2_7.FreqCnt),
    (py!"instr", count_t),
    (py!"cycle", count_t),
    (py!"cfuture", (.array count_t 6))]) []

/-- atoparser/structs/atop_2_7.py:210-230 -/
def V2_7.CPUStat : CType := .struct py!"atop_2_7.CPUStat" (.ofList [
    (py!"nrcpu", count_t),
    (py!"devint", count_t),
    (py!"csw", count_t),
    (py!"nprocs", count_t),
    (py!"lavg1", c_float),
    (py!"lavg5", c_float),
    (py!"lavg15", c_float),
    (py!"cfuture", (.array count_t 4)),
    (py!"all", V2_7.PerCPU),
    (py!"cpu", (.array V2_7.PerCPU V2_7.MAXCPU))]) [(py!"cpu", py!"nrcpu")]

/-- atoparser/structs/atop_2_7.py:233-252 -/
def V2_7.PerDSK : CType := .struct py!"atop_2_7.PerDSK" (.ofList [
    (py!"name", (.array c_char V2_7.MAXDKNAM)),
    (py!"nread", count_t),
    (py!"nrsect", count_t),
    (py!"nwrite", count_t),
    (py!"nwsect", count_t),
    (py!"io_ms", count_t),
    (py!"avque", count_t),
    (py!"ndisc", count_t),
    (py!"ndsect", count_t),
    (py!"cfuture", (.array count_t 2))]) []

/-- atoparser/structs/atop_2_7.py:255-275 -/
def V2_7.DSKStat : CType := .struct py!"atop_2_7.DSKStat" (.ofList [
    (py!"ndsk", c_int),
    (py!"nmdd", c_int),
    (py!"nlvm", c_int),
    (py!"dsk", (.array V2_7.PerDSK V2_7.MAXDSK)),
    (py!"mdd", (.array V2_7.PerDSK V2_7.MAXMDD)),
    (py!"lvm", (.array V2_7.PerDSK V2_7.MAXLVM))]) [(py!"dsk", py!"ndsk"), (py!"mdd", py!"nmdd"), (py!"lvm", py!"nlvm")]

/-- atoparser/structs/atop_2_7.py:278 -/
def V2_7.PerIntf : CType := V2_3.PerIntf

/-- atoparser/structs/atop_2_7.py:281 -/
def V2_7.IntfStat : CType := V2_3.IntfStat

/-- atoparser/structs/atop_2_7.py:284 -/
def V2_7.PerNFSMount : CType := V2_3.PerNFSMount

/-- atoparser/structs/atop_2_7.py:287 -/
def V2_7.Server : CType := V2_3.Server

/-- atoparser/structs/atop_2_7.py:290 -/
def V2_7.Client : CType := V2_3.Client

/-- atoparser/structs/atop_2_7.py:293 -/
def V2_7.NFSMounts : CType := V2_3.NFSMounts

/-- atoparser/structs/atop_2_7.py:296 -/
def V2_7.NFSStat : CType := V2_3.NFSStat

/-- atoparser/structs/atop_2_7.py:299 -/
def V2_7.PSI : CType := V2_4.PSI

/-- atoparser/structs/atop_2_7.py:302 -/
def V2_7.Pressure : CType := V2_4.Pressure

/-- atoparser/structs/atop_2_7.py:305 -/
def V2_7.PerContainer : CType := V2_3.PerContainer

/-- atoparser/structs/atop_2_7.py:308 -/
def V2_7.ContStat : CType := V2_3.ContStat

/-- atoparser/structs/atop_2_7.py:311 -/
def V2_7.WWWStat : CType := V1_26.WWWStat

/-- atoparser/structs/atop_2_7.py:314 -/
def V2_7.PerGPU : CType := V2_4.PerGPU

/-- atoparser/structs/atop_2_7.py:317 -/
def V2_7.GPUStat : CType := V2_4.GPUStat

/-- atoparser/structs/atop_2_7.py:320 -/
def V2_7.PerIFB : CType := V2_4.PerIFB

/-- atoparser/structs/atop_2_7.py:323 -/
def V2_7.IFBStat : CType := V2_4.IFBStat

/-- atoparser/structs/atop_2_7.py:326 -/
def V2_7.IPv4Stats : CType := V1_26.IPv4Stats

/-- atoparser/structs/atop_2_7.py:329 -/
def V2_7.ICMPv4Stats : CType := V1_26.ICMPv4Stats

/-- atoparser/structs/atop_2_7.py:332 -/
def V2_7.UDPv4Stats : CType := V1_26.UDPv4Stats

/-- atoparser/structs/atop_2_7.py:335 -/
def V2_7.TCPStats : CType := V1_26.TCPStats

/-- atoparser/structs/atop_2_7.py:338 -/
def V2_7.IPv6Stats : CType := V1_26.IPv6Stats

/-- atoparser/structs/atop_2_7.py:341 -/
def V2_7.ICMPv6Stats : CType := V1_26.ICMPv6Stats

/-- atoparser/structs/atop_2_7.py:344 -/
def V2_7.UDPv6Stats : CType := V1_26.UDPv6Stats

/-- atoparser/structs/atop_2_7.py:347 -/
def V2_7.NETStat : CType := V1_26.NETStat

/-- atoparser/structs/atop_2_7.py:350-371 -/
def V2_7.SStat : CType := .struct py!"atop_2_7.SStat" (.ofList [
    (py!"cpu", V2_7.CPUStat),
    (py!"mem", V2_7.MemStat),
    (py!"net", V2_7.NETStat),
    (py!"intf", V2_7.IntfStat),
    (py!"memnuma", V2_7.MemNUMA),
    (py!"cpunuma", V2_7.CPUNUMA),
    (py!"dsk", V2_7.DSKStat),
    (py!"nfs", V2_7.NFSStat),
    (py!"cfs", V2_7.ContStat),
    (py!"psi", V2_7.Pressure),
    (py!"gpu", V2_7.GPUStat),
    (py!"ifb", V2_7.IFBStat),
    (py!"www", V2_7.WWWStat)]) []

/-- atoparser/structs/atop_2_7.py:374 -/
def V2_7.GEN : CType := V2_3.GEN

/-- atoparser/structs/atop_2_7.py:377 -/
def V2_7.CPU : CType := V2_6.CPU

/-- atoparser/structs/atop_2_7.py:380 -/
def V2_7.DSK : CType := V1_26.DSK

/-- atoparser/structs/atop_2_7.py:383 -/
def V2_7.MEM : CType := V2_6.MEM

/-- atoparser/structs/atop_2_7.py:386 -/
def V2_7.NET : CType := V2_3.NET

/-- atoparser/structs/atop_2_7.py:389 -/
def V2_7.GPU : CType := V2_4.GPU

/-- atoparser/structs/atop_2_7.py:392 -/
def V2_7.TStat : CType := V2_6.TStat

/-- atoparser/structs/atop_2_7.py:395-403 -/
def V2_7.Header : HeaderClass where
  supportedVersion := py!"2.7"
  fields := V2_3.Header.fields
  Record := V2_7.Record
  SStat := V2_7.SStat
  TStat := V2_7.TStat
  CStat := none

end Atop
