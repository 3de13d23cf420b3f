-- GENERATED by tools/gen_structs.py from /repo/atoparser/structs/atop_2_10.py (read as text). Do not edit.
import Verif.Model.Structs.Shared
import Verif.Model.Structs.V1_26
import Verif.Model.Structs.V2_3
import Verif.Model.Structs.V2_4
import Verif.Model.Structs.V2_7
import Verif.Model.Structs.V2_8

namespace Atop

/-- atoparser/structs/atop_2_10.py:31 -/
abbrev V2_10.ACCTACTIVE : Nat := 1

/-- atoparser/structs/atop_2_10.py:32 -/
abbrev V2_10.IOSTAT : Nat := 4

/-- atoparser/structs/atop_2_10.py:33 -/
abbrev V2_10.NETATOP : Nat := 16

/-- atoparser/structs/atop_2_10.py:34 -/
abbrev V2_10.NETATOPD : Nat := 32

/-- atoparser/structs/atop_2_10.py:35 -/
abbrev V2_10.CONTAINERSTAT : Nat := 64

/-- atoparser/structs/atop_2_10.py:36 -/
abbrev V2_10.GPUSTAT : Nat := 128

/-- atoparser/structs/atop_2_10.py:37 -/
abbrev V2_10.CGROUPV2 : Nat := 256

/-- atoparser/structs/atop_2_10.py:38 -/
abbrev V2_10.NETATOPBPF : Nat := 4096

/-- atoparser/structs/atop_2_10.py:41 -/
abbrev V2_10.PNAMLEN : Nat := 15

/-- atoparser/structs/atop_2_10.py:42 -/
abbrev V2_10.CMDLEN : Nat := 255

/-- atoparser/structs/atop_2_10.py:43 -/
abbrev V2_10.CGRLEN : Nat := 64

/-- atoparser/structs/atop_2_10.py:44 -/
abbrev V2_10.UTSLEN : Nat := 15

/-- atoparser/structs/atop_2_10.py:47 -/
abbrev V2_10.MAXCPU : Nat := 2048

/-- atoparser/structs/atop_2_10.py:48 -/
abbrev V2_10.MAXDSK : Nat := 1024

/-- atoparser/structs/atop_2_10.py:49 -/
abbrev V2_10.MAXNUMA : Nat := 1024

/-- atoparser/structs/atop_2_10.py:50 -/
abbrev V2_10.MAXLVM : Nat := 2048

/-- atoparser/structs/atop_2_10.py:51 -/
abbrev V2_10.MAXMDD : Nat := 256

/-- atoparser/structs/atop_2_10.py:52 -/
abbrev V2_10.MAXINTF : Nat := 128

/-- atoparser/structs/atop_2_10.py:53 -/
abbrev V2_10.MAXCONTAINER : Nat := 128

/-- atoparser/structs/atop_2_10.py:54 -/
abbrev V2_10.MAXNFSMOUNT : Nat := 64

/-- atoparser/structs/atop_2_10.py:55 -/
abbrev V2_10.MAXIBPORT : Nat := 32

/-- atoparser/structs/atop_2_10.py:56 -/
abbrev V2_10.MAXGPU : Nat := 32

/-- atoparser/structs/atop_2_10.py:57 -/
abbrev V2_10.MAXGPUBUS : Nat := 12

/-- atoparser/structs/atop_2_10.py:58 -/
abbrev V2_10.MAXGPUTYPE : Nat := 12

/-- atoparser/structs/atop_2_10.py:59 -/
abbrev V2_10.MAXLLC : Nat := 256

/-- atoparser/structs/atop_2_10.py:60 -/
abbrev V2_10.MAXDKNAM : Nat := 32

/-- atoparser/structs/atop_2_10.py:61 -/
abbrev V2_10.MAXIBNAME : Nat := 12

/-- atoparser/structs/atop_2_10.py:64-90 -/
def V2_10.Record : CType := .struct py!"atop_2_10.Record" (.ofList [
    (py!"curtime", time_t),
    (py!"flags", c_ushort),
    (py!"sfuture", (.array c_ushort 3)),
    (py!"scomplen", c_uint),
    (py!"pcomplen", c_uint),
    (py!"interval", c_uint),
    (py!"ndeviat", c_uint),
    (py!"nactproc", c_uint),
    (py!"ntask", c_uint),
    (py!"totproc", c_uint),
    (py!"totrun", c_uint),
    (py!"totslpi", c_uint),
    (py!"totslpu", c_uint),
    (py!"totzomb", c_uint),
    (py!"nexit", c_uint),
    (py!"noverflow", c_uint),
    (py!"totidle", c_uint),
    (py!"ifuture", (.array c_uint 5))]) []

/-- atoparser/structs/atop_2_10.py:93-148 -/
def V2_10.MemStat : CType := .struct py!"atop_2_10.MemStat" (.ofList [
    (py!"physmem", count_t),
    (py!"freemem", count_t),
    (py!"buffermem", count_t),
    (py!"slabmem", count_t),
    (py!"cachemem", count_t),
    (py!"cachedrt", count_t),
    (py!"totswap", count_t),
    (py!"freeswap", count_t),
    (py!"pgscans", count_t),
    (py!"pgsteal", count_t),
    (py!"allocstall", count_t),
    (py!"swouts", count_t),
    (py!"swins", count_t),
    (py!"tcpsock", count_t),
    (py!"udpsock", count_t),
    (py!"commitlim", count_t),
    (py!"committed", count_t),
    (py!"shmem", count_t),
    (py!"shmrss", count_t),
    (py!"shmswp", count_t),
    (py!"slabreclaim", count_t),
    (py!"stothugepage", count_t),
    (py!"sfreehugepage", count_t),
    (py!"shugepagesz", count_t),
    (py!"vmwballoon", count_t),
    (py!"zfsarcsize", count_t),
    (py!"swapcached", count_t),
    (py!"ksmsharing", count_t),
    (py!"ksmshared", count_t),
    (py!"zswapped", count_t),
    (py!"zswap", count_t),
    (py!"oomkills", count_t),
    (py!"compactstall", count_t),
    (py!"pgmigrate", count_t),
    (py!"numamigrate", count_t),
    (py!"pgouts", count_t),
    (py!"pgins", count_t),
    (py!"pagetables", count_t),
    (py!"zswouts", count_t),
    (py!"zswins", count_t),
    (py!"ltothugepage", count_t),
    (py!"lfreehugepage", count_t),
    (py!"lhugepagesz", count_t),
    (py!"availablemem", count_t),
    (py!"anonhugepage", count_t),
    (py!"cfuture", (.array count_t 4))]) []

/-- atoparser/structs/atop_2_10.py:151-173 -/
def V2_10.MemPerNUMA : CType := .struct py!"atop_2_10.MemPerNUMA" (.ofList [
    (py!"numanr", c_int),
    (py!"frag", c_float),
    (py!"totmem", count_t),
    (py!"freemem", count_t),
    (py!"filepage", count_t),
    (py!"dirtymem", count_t),
    (py!"slabmem", count_t),
    (py!"slabreclaim", count_t),
    (py!"active", count_t),
    (py!"inactive", count_t),
    (py!"shmem", count_t),
    (py!"tothp", count_t),
    (py!"freehp", count_t)]) []

/-- atoparser/structs/atop_2_10.py:176-188 -/
def V2_10.MemNUMA : CType := .struct py!"atop_2_10.MemNUMA" (.ofList [
    (py!"nrnuma", count_t),
    (py!"numa", (.array V2_10.MemPerNUMA V2_10.MAXNUMA))]) [(py!"numa", py!"nrnuma")]

/-- atoparser/structs/atop_2_10.py:191 -/
def V2_10.CPUPerNUMA : CType := V2_8.CPUPerNUMA

/-- atoparser/structs/atop_2_10.py:194 -/
def V2_10.CPUNUMA : CType := V2_8.CPUNUMA

/-- atoparser/structs/atop_2_10.py:197 -/
def V2_10.FreqCnt : CType := V1_26.FreqCnt

/-- atoparser/structs/atop_2_10.py:200 -/
def V2_10.PerCPU : CType := V2_7.PerCPU

/-- atoparser/structs/atop_2_10.py:203 -/
def V2_10.CPUStat : CType := V2_7.CPUStat

/-- atoparser/structs/atop_2_10.py:206 -/
def V2_10.PerDSK : CType := V2_8.PerDSK

/-- atoparser/structs/atop_2_10.py:209 -/
def V2_10.DSKStat : CType := V2_8.DSKStat

/-- atoparser/structs/atop_2_10.py:212 -/
def V2_10.PerIntf : CType := V2_3.PerIntf

/-- atoparser/structs/atop_2_10.py:215 -/
def V2_10.IntfStat : CType := V2_3.IntfStat

/-- atoparser/structs/atop_2_10.py:218 -/
def V2_10.PerNFSMount : CType := V2_3.PerNFSMount

/-- atoparser/structs/atop_2_10.py:221 -/
def V2_10.Server : CType := V2_3.Server

/-- atoparser/structs/atop_2_10.py:224 -/
def V2_10.Client : CType := V2_3.Client

/-- atoparser/structs/atop_2_10.py:227 -/
def V2_10.NFSMounts : CType := V2_3.NFSMounts

/-- atoparser/structs/atop_2_10.py:230 -/
def V2_10.NFSStat : CType := V2_3.NFSStat

/-- atoparser/structs/atop_2_10.py:233 -/
def V2_10.PSI : CType := V2_4.PSI

/-- atoparser/structs/atop_2_10.py:236 -/
def V2_10.Pressure : CType := V2_4.Pressure

/-- atoparser/structs/atop_2_10.py:239 -/
def V2_10.PerContainer : CType := V2_3.PerContainer

/-- atoparser/structs/atop_2_10.py:242 -/
def V2_10.ContStat : CType := V2_3.ContStat

/-- atoparser/structs/atop_2_10.py:245 -/
def V2_10.WWWStat : CType := V1_26.WWWStat

/-- atoparser/structs/atop_2_10.py:248 -/
def V2_10.PerGPU : CType := V2_4.PerGPU

/-- atoparser/structs/atop_2_10.py:251 -/
def V2_10.GPUStat : CType := V2_4.GPUStat

/-- atoparser/structs/atop_2_10.py:254 -/
def V2_10.PerIFB : CType := V2_4.PerIFB

/-- atoparser/structs/atop_2_10.py:257 -/
def V2_10.IFBStat : CType := V2_4.IFBStat

/-- atoparser/structs/atop_2_10.py:260 -/
def V2_10.PerLLC : CType := V2_8.PerLLC

/-- atoparser/structs/atop_2_10.py:263 -/
def V2_10.LLCStat : CType := V2_8.LLCStat

/-- atoparser/structs/atop_2_10.py:266 -/
def V2_10.IPv4Stats : CType := V1_26.IPv4Stats

/-- atoparser/structs/atop_2_10.py:269 -/
def V2_10.ICMPv4Stats : CType := V2_8.ICMPv4Stats

/-- atoparser/structs/atop_2_10.py:272 -/
def V2_10.UDPv4Stats : CType := V1_26.UDPv4Stats

/-- atoparser/structs/atop_2_10.py:275-299 -/
def V2_10.TCPStats : CType := .struct py!"atop_2_10.TCPStats" (.ofList [
    (py!"RtoAlgorithm", count_t),
    (py!"RtoMin", count_t),
    (py!"RtoMax", count_t),
    (py!"MaxConn", count_t),
    (py!"ActiveOpens", count_t),
    (py!"PassiveOpens", count_t),
    (py!"AttemptFails", count_t),
    (py!"EstabResets", count_t),
    (py!"CurrEstab", count_t),
    (py!"InSegs", count_t),
    (py!"OutSegs", count_t),
    (py!"RetransSegs", count_t),
    (py!"InErrs", count_t),
    (py!"OutRsts", count_t),
    (py!"InCsumErrors", count_t)]) []

/-- atoparser/structs/atop_2_10.py:302 -/
def V2_10.IPv6Stats : CType := V1_26.IPv6Stats

/-- atoparser/structs/atop_2_10.py:305 -/
def V2_10.ICMPv6Stats : CType := V1_26.ICMPv6Stats

/-- atoparser/structs/atop_2_10.py:308 -/
def V2_10.UDPv6Stats : CType := V1_26.UDPv6Stats

/-- atoparser/structs/atop_2_10.py:311-327 -/
def V2_10.NETStat : CType := .struct py!"atop_2_10.NETStat" (.ofList [
    (py!"ipv4", V2_10.IPv4Stats),
    (py!"icmpv4", V2_10.ICMPv4Stats),
    (py!"udpv4", V2_10.UDPv4Stats),
    (py!"ipv6", V2_10.IPv6Stats),
    (py!"icmpv6", V2_10.ICMPv6Stats),
    (py!"udpv6", V2_10.UDPv6Stats),
    (py!"tcp", V2_10.TCPStats)]) []

/-- atoparser/structs/atop_2_10.py:330-352 -/
def V2_10.SStat : CType := .struct py!"atop_2_10.SStat" (.ofList [
    (py!"cpu", V2_10.CPUStat),
    (py!"mem", V2_10.MemStat),
    (py!"net", V2_10.NETStat),
    (py!"intf", V2_10.IntfStat),
    (py!"memnuma", V2_10.MemNUMA),
    (py!"cpunuma", V2_10.CPUNUMA),
    (py!"dsk", V2_10.DSKStat),
    (py!"nfs", V2_10.NFSStat),
    (py!"cfs", V2_10.ContStat),
    (py!"psi", V2_10.Pressure),
    (py!"gpu", V2_10.GPUStat),
    (py!"ifb", V2_10.IFBStat),
    (py!"llc", V2_10.LLCStat),
    (py!"www", V2_10.WWWStat)]) []

/-- atoparser/structs/atop_2_10.py:355-392 -/
def V2_10.GEN : CType := .struct py!"atop_2_10.GEN" (.ofList [
    (py!"tgid", c_int),
    (py!"pid", c_int),
    (py!"ppid", c_int),
    (py!"ruid", c_int),
    (py!"euid", c_int),
    (py!"suid", c_int),
    (py!"fsuid", c_int),
    (py!"rgid", c_int),
    (py!"egid", c_int),
    (py!"sgid", c_int),
    (py!"fsgid", c_int),
    (py!"nthr", c_int),
    (py!"name", (.array c_char (V2_10.PNAMLEN + 1))),
    (py!"isproc", c_char),
    (py!"state", c_char),
    (py!"excode", c_int),
    (py!"btime", time_t),
    (py!"elaps", time_t),
    (py!"cmdline", (.array c_char (V2_10.CMDLEN + 1))),
    (py!"nthrslpi", c_int),
    (py!"nthrslpu", c_int),
    (py!"nthrrun", c_int),
    (py!"nthridle", c_int),
    (py!"ctid", c_int),
    (py!"vpid", c_int),
    (py!"wasinactive", c_int),
    (py!"utsname", (.array c_char (V2_10.UTSLEN + 1))),
    (py!"cgpath", (.array c_char V2_10.CGRLEN))]) []

/-- atoparser/structs/atop_2_10.py:395-422 -/
def V2_10.CPU : CType := .struct py!"atop_2_10.CPU" (.ofList [
    (py!"utime", count_t),
    (py!"stime", count_t),
    (py!"nice", c_int),
    (py!"prio", c_int),
    (py!"rtprio", c_int),
    (py!"policy", c_int),
    (py!"curcpu", c_int),
    (py!"sleepavg", c_int),
    (py!"cgcpuweight", c_int),
    (py!"cgcpumax", c_int),
    (py!"cgcpumaxr", c_int),
    (py!"ifuture", (.array c_int 3)),
    (py!"wchan", (.array c_char 16)),
    (py!"rundelay", count_t),
    (py!"blkdelay", count_t),
    (py!"nvcsw", count_t),
    (py!"nivcsw", count_t),
    (py!"cfuture", (.array count_t 3))]) []

/-- atoparser/structs/atop_2_10.py:425 -/
def V2_10.DSK : CType := V1_26.DSK

/-- atoparser/structs/atop_2_10.py:428 -/
def V2_10.MEM : CType := V2_8.MEM

/-- atoparser/structs/atop_2_10.py:431 -/
def V2_10.NET : CType := V2_3.NET

/-- atoparser/structs/atop_2_10.py:434 -/
def V2_10.GPU : CType := V2_4.GPU

/-- atoparser/structs/atop_2_10.py:437-451 -/
def V2_10.TStat : CType := .struct py!"atop_2_10.TStat" (.ofList [
    (py!"gen", V2_10.GEN),
    (py!"cpu", V2_10.CPU),
    (py!"dsk", V2_10.DSK),
    (py!"mem", V2_10.MEM),
    (py!"net", V2_10.NET),
    (py!"gpu", V2_10.GPU)]) []

/-- atoparser/structs/atop_2_10.py:454-462 -/
def V2_10.Header : HeaderClass where
  supportedVersion := py!"2.10"
  fields := V2_8.Header.fields
  Record := V2_10.Record
  SStat := V2_10.SStat
  TStat := V2_10.TStat
  CStat := none

end Atop
