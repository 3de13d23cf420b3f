-- GENERATED by tools/gen_structs.py from /repo/atoparser/structs/atop_2_8.py (read as text). Do not edit.
import Verif.Model.Structs.Shared
import Verif.Model.Structs.V1_26
import Verif.Model.Structs.V2_3
import Verif.Model.Structs.V2_4
import Verif.Model.Structs.V2_7

namespace Atop

/-- atoparser/structs/atop_2_8.py:32 -/
abbrev V2_8.ACCTACTIVE : Nat := 1

/-- atoparser/structs/atop_2_8.py:33 -/
abbrev V2_8.IOSTAT : Nat := 4

/-- atoparser/structs/atop_2_8.py:34 -/
abbrev V2_8.NETATOP : Nat := 16

/-- atoparser/structs/atop_2_8.py:35 -/
abbrev V2_8.NETATOPD : Nat := 32

/-- atoparser/structs/atop_2_8.py:36 -/
abbrev V2_8.DOCKSTAT : Nat := 64

/-- atoparser/structs/atop_2_8.py:37 -/
abbrev V2_8.GPUSTAT : Nat := 128

/-- atoparser/structs/atop_2_8.py:38 -/
abbrev V2_8.CGROUPV2 : Nat := 256

/-- atoparser/structs/atop_2_8.py:41 -/
abbrev V2_8.PNAMLEN : Nat := 15

/-- atoparser/structs/atop_2_8.py:42 -/
abbrev V2_8.CMDLEN : Nat := 255

/-- atoparser/structs/atop_2_8.py:43 -/
abbrev V2_8.CGRLEN : Nat := 64

/-- atoparser/structs/atop_2_8.py:46 -/
abbrev V2_8.MAXCPU : Nat := 2048

/-- atoparser/structs/atop_2_8.py:47 -/
abbrev V2_8.MAXDSK : Nat := 1024

/-- atoparser/structs/atop_2_8.py:48 -/
abbrev V2_8.MAXNUMA : Nat := 1024

/-- atoparser/structs/atop_2_8.py:49 -/
abbrev V2_8.MAXLVM : Nat := 2048

/-- atoparser/structs/atop_2_8.py:50 -/
abbrev V2_8.MAXMDD : Nat := 256

/-- atoparser/structs/atop_2_8.py:51 -/
abbrev V2_8.MAXINTF : Nat := 128

/-- atoparser/structs/atop_2_8.py:52 -/
abbrev V2_8.MAXCONTAINER : Nat := 128

/-- atoparser/structs/atop_2_8.py:53 -/
abbrev V2_8.MAXNFSMOUNT : Nat := 64

/-- atoparser/structs/atop_2_8.py:54 -/
abbrev V2_8.MAXIBPORT : Nat := 32

/-- atoparser/structs/atop_2_8.py:55 -/
abbrev V2_8.MAXGPU : Nat := 32

/-- atoparser/structs/atop_2_8.py:56 -/
abbrev V2_8.MAXGPUBUS : Nat := 12

/-- atoparser/structs/atop_2_8.py:57 -/
abbrev V2_8.MAXGPUTYPE : Nat := 12

/-- atoparser/structs/atop_2_8.py:58 -/
abbrev V2_8.MAXLLC : Nat := 256

/-- atoparser/structs/atop_2_8.py:59 -/
abbrev V2_8.MAXDKNAM : Nat := 32

/-- atoparser/structs/atop_2_8.py:60 -/
abbrev V2_8.MAXIBNAME : Nat := 12

/-- atoparser/structs/atop_2_8.py:63-94 -/
def V2_8.Record : CType := .struct py!"atop_2_8.Record" (.ofList [
    (py!"curtime", time_t),
    (py!"flags", c_ushort),
    (py!"ncgroups", c_ushort),
    (py!"sfuture", (.array c_ushort 2)),
    (py!"scomplen", c_uint),
    (py!"pcomplen", c_uint),
    (py!"interval", c_uint),
    (py!"ndeviat", c_uint),
    (py!"nactproc", c_uint),
    (py!"ntask", c_uint),
    (py!"totproc", c_uint),
    (py!"totrun", c_uint),
    (py!"totslpi", c_uint),
    (py!"totslpu", c_uint),
    (py!"totzomb", c_uint),
    (py!"nexit", c_uint),
    (py!"noverflow", c_uint),
    (py!"totidle", c_uint),
    (py!"ccomplen", c_uint),
    (py!"coriglen", c_uint),
    (py!"ncgpids", c_uint),
    (py!"icomplen", c_uint),
    (py!"ifuture", c_uint)]) []

/-- atoparser/structs/atop_2_8.py:97-145 -/
def V2_8.MemStat : CType := .struct py!"atop_2_8.MemStat" (.ofList [
    (py!"physmem", count_t),
    (py!"freemem", count_t),
    (py!"buffermem", count_t),
    (py!"slabmem", count_t),
    (py!"cachemem", count_t),
    (py!"cachedrt", count_t),
    (py!"totswap", count_t),
    (py!"freeswap", count_t),
    (py!"pgscans", count_t),
    (py!"pgsteal", count_t),
    (py!"allocstall", count_t),
    (py!"swouts", count_t),
    (py!"swins", count_t),
    (py!"tcpsock", count_t),
    (py!"udpsock", count_t),
    (py!"commitlim", count_t),
    (py!"committed", count_t),
    (py!"shmem", count_t),
    (py!"shmrss", count_t),
    (py!"shmswp", count_t),
    (py!"slabreclaim", count_t),
    (py!"tothugepage", count_t),
    (py!"freehugepage", count_t),
    (py!"hugepagesz", count_t),
    (py!"vmwballoon", count_t),
    (py!"zfsarcsize", count_t),
    (py!"swapcached", count_t),
    (py!"ksmsharing", count_t),
    (py!"ksmshared", count_t),
    (py!"zswstored", count_t),
    (py!"zswtotpool", count_t),
    (py!"oomkills", count_t),
    (py!"compactstall", count_t),
    (py!"pgmigrate", count_t),
    (py!"numamigrate", count_t),
    (py!"pgouts", count_t),
    (py!"pgins", count_t),
    (py!"pagetables", count_t),
    (py!"cfuture", (.array count_t 4))]) []

/-- atoparser/structs/atop_2_8.py:148-169 -/
def V2_8.MemPerNUMA : CType := .struct py!"atop_2_8.MemPerNUMA" (.ofList [
    (py!"numanr", c_int),
    (py!"frag", c_float),
    (py!"totmem", count_t),
    (py!"freemem", count_t),
    (py!"filepage", count_t),
    (py!"dirtymem", count_t),
    (py!"slabmem", count_t),
    (py!"slabreclaim", count_t),
    (py!"active", count_t),
    (py!"inactive", count_t),
    (py!"shmem", count_t),
    (py!"tothp", count_t)]) []

/-- atoparser/structs/atop_2_8.py:172-184 -/
def V2_8.MemNUMA : CType := .struct py!"atop_2_8.MemNUMA" (.ofList [
    (py!"nrnuma", count_t),
    (py!"numa", (.array V2_8.MemPerNUMA V2_8.MAXNUMA))]) [(py!"numa", py!"nrnuma")]

/-- atoparser/structs/atop_2_8.py:187-207 -/
def V2_8.CPUPerNUMA : CType := .struct py!"atop_2_8.CPUPerNUMA" (.ofList [
    (py!"numanr", c_int),
    (py!"nrcpu", count_t),
    (py!"stime", count_t),
    (py!"utime", count_t),
    (py!"ntime", count_t),
    (py!"itime", count_t),
    (py!"wtime", count_t),
    (py!"Itime", count_t),
    (py!"Stime", count_t),
    (py!"steal", count_t),
    (py!"guest", count_t)]) []

/-- atoparser/structs/atop_2_8.py:210-222 -/
def V2_8.CPUNUMA : CType := .struct py!"atop_2_8.CPUNUMA" (.ofList [
    (py!"nrnuma", count_t),
    (py!"numa", (.array V2_8.CPUPerNUMA V2_8.MAXNUMA))]) [(py!"numa", py!"nrnuma")]

/-- atoparser/structs/atop_2_8.py:225 -/
def V2_8.FreqCnt : CType := V1_26.FreqCnt

/-- atoparser/structs/atop_2_8.py:228 -/
def V2_8.PerCPU : CType := V2_7.PerCPU

/-- atoparser/structs/atop_2_8.py:231 -/
def V2_8.CPUStat : CType := V2_7.CPUStat

/-- atoparser/structs/atop_2_8.py:234-254 -/
def V2_8.PerDSK : CType := .struct py!"atop_2_8.PerDSK" (.ofList [
    (py!"name", (.array c_char V2_8.MAXDKNAM)),
    (py!"nread", count_t),
    (py!"nrsect", count_t),
    (py!"nwrite", count_t),
    (py!"nwsect", count_t),
    (py!"io_ms", count_t),
    (py!"avque", count_t),
    (py!"ndisc", count_t),
    (py!"ndsect", count_t),
    (py!"inflight", count_t),
    (py!"cfuture", (.array count_t 3))]) []

/-- atoparser/structs/atop_2_8.py:257-277 -/
def V2_8.DSKStat : CType := .struct py!"atop_2_8.DSKStat" (.ofList [
    (py!"ndsk", c_int),
    (py!"nmdd", c_int),
    (py!"nlvm", c_int),
    (py!"dsk", (.array V2_8.PerDSK V2_8.MAXDSK)),
    (py!"mdd", (.array V2_8.PerDSK V2_8.MAXMDD)),
    (py!"lvm", (.array V2_8.PerDSK V2_8.MAXLVM))]) [(py!"dsk", py!"ndsk"), (py!"mdd", py!"nmdd"), (py!"lvm", py!"nlvm")]

/-- atoparser/structs/atop_2_8.py:280 -/
def V2_8.PerIntf : CType := V2_3.PerIntf

/-- atoparser/structs/atop_2_8.py:283 -/
def V2_8.IntfStat : CType := V2_3.IntfStat

/-- atoparser/structs/atop_2_8.py:286 -/
def V2_8.PerNFSMount : CType := V2_3.PerNFSMount

/-- atoparser/structs/atop_2_8.py:289 -/
def V2_8.Server : CType := V2_3.Server

/-- atoparser/structs/atop_2_8.py:292 -/
def V2_8.Client : CType := V2_3.Client

/-- atoparser/structs/atop_2_8.py:295 -/
def V2_8.NFSMounts : CType := V2_3.NFSMounts

/-- atoparser/structs/atop_2_8.py:298 -/
def V2_8.NFSStat : CType := V2_3.NFSStat

/-- atoparser/structs/atop_2_8.py:301 -/
def V2_8.PSI : CType := V2_4.PSI

/-- atoparser/structs/atop_2_8.py:304 -/
def V2_8.Pressure : CType := V2_4.Pressure

/-- atoparser/structs/atop_2_8.py:307 -/
def V2_8.PerContainer : CType := V2_3.PerContainer

/-- atoparser/structs/atop_2_8.py:310 -/
def V2_8.ContStat : CType := V2_3.ContStat

/-- atoparser/structs/atop_2_8.py:313 -/
def V2_8.WWWStat : CType := V1_26.WWWStat

/-- atoparser/structs/atop_2_8.py:316 -/
def V2_8.PerGPU : CType := V2_4.PerGPU

/-- atoparser/structs/atop_2_8.py:319 -/
def V2_8.GPUStat : CType := V2_4.GPUStat

/-- atoparser/structs/atop_2_8.py:322 -/
def V2_8.PerIFB : CType := V2_4.PerIFB

/-- atoparser/structs/atop_2_8.py:325 -/
def V2_8.IFBStat : CType := V2_4.IFBStat

/-- atoparser/structs/atop_2_8.py:328-341 -/
def V2_8.PerLLC : CType := .struct py!"atop_2_8.PerLLC" (.ofList [
    (py!"id", c_uint8),
    (py!"occupancy", c_float),
    (py!"mbm_local", count_t),
    (py!"mbm_total", count_t)]) []

/-- atoparser/structs/atop_2_8.py:344-356 -/
def V2_8.LLCStat : CType := .struct py!"atop_2_8.LLCStat" (.ofList [
    (py!"nrllcs", c_int),
    (py!"perllc", (.array V2_8.PerLLC V2_8.MAXLLC))]) [(py!"perllc", py!"nrllcs")]

/-- atoparser/structs/atop_2_8.py:359 -/
def V2_8.IPv4Stats : CType := V1_26.IPv4Stats

/-- atoparser/structs/atop_2_8.py:362-398 -/
def V2_8.ICMPv4Stats : CType := .struct py!"atop_2_8.ICMPv4Stats" (.ofList [
    (py!"InMsgs", count_t),
    (py!"InErrors", count_t),
    (py!"InCsumErrors", count_t),
    (py!"InDestUnreachs", count_t),
    (py!"InTimeExcds", count_t),
    (py!"InParmProbs", count_t),
    (py!"InSrcQuenchs", count_t),
    (py!"InRedirects", count_t),
    (py!"InEchos", count_t),
    (py!"InEchoReps", count_t),
    (py!"InTimestamps", count_t),
    (py!"InTimestampReps", count_t),
    (py!"InAddrMasks", count_t),
    (py!"InAddrMaskReps", count_t),
    (py!"OutMsgs", count_t),
    (py!"OutErrors", count_t),
    (py!"OutDestUnreachs", count_t),
    (py!"OutTimeExcds", count_t),
    (py!"OutParmProbs", count_t),
    (py!"OutSrcQuenchs", count_t),
    (py!"OutRedirects", count_t),
    (py!"OutEchos", count_t),
    (py!"OutEchoReps", count_t),
    (py!"OutTimestamps", count_t),
    (py!"OutTimestampReps", count_t),
    (py!"OutAddrMasks", count_t),
    (py!"OutAddrMaskReps", count_t)]) []

/-- atoparser/structs/atop_2_8.py:401 -/
def V2_8.UDPv4Stats : CType := V1_26.UDPv4Stats

/-- atoparser/structs/atop_2_8.py:404 -/
def V2_8.TCPStats : CType := V1_26.TCPStats

/-- atoparser/structs/atop_2_8.py:407 -/
def V2_8.IPv6Stats : CType := V1_26.IPv6Stats

/-- atoparser/structs/atop_2_8.py:410 -/
def V2_8.ICMPv6Stats : CType := V1_26.ICMPv6Stats

/-- atoparser/structs/atop_2_8.py:413 -/
def V2_8.UDPv6Stats : CType := V1_26.UDPv6Stats

/-- atoparser/structs/atop_2_8.py:416-432 -/
def V2_8.NETStat : CType := .struct py!"atop_2_8.NETStat" (.ofList [
    (py!"ipv4", V2_8.IPv4Stats),
    (py!"icmpv4", V2_8.ICMPv4Stats),
    (py!"udpv4", V2_8.UDPv4Stats),
    (py!"ipv6", V2_8.IPv6Stats),
    (py!"icmpv6", V2_8.ICMPv6Stats),
    (py!"udpv6", V2_8.UDPv6Stats),
    (py!"tcp", V2_8.TCPStats)]) []

/-- atoparser/structs/atop_2_8.py:435-457 -/
def V2_8.SStat : CType := .struct py!"atop_2_8.SStat" (.ofList [
    (py!"cpu", V2_8.CPUStat),
    (py!"mem", V2_8.MemStat),
    (py!"net", V2_8.NETStat),
    (py!"intf", V2_8.IntfStat),
    (py!"memnuma", V2_8.MemNUMA),
    (py!"cpunuma", V2_8.CPUNUMA),
    (py!"dsk", V2_8.DSKStat),
    (py!"nfs", V2_8.NFSStat),
    (py!"cfs", V2_8.ContStat),
    (py!"psi", V2_8.Pressure),
    (py!"gpu", V2_8.GPUStat),
    (py!"ifb", V2_8.IFBStat),
    (py!"llc", V2_8.LLCStat),
    (py!"www", V2_8.WWWStat)]) []

/-- atoparser/structs/atop_2_8.py:460-496 -/
def V2_8.GEN : CType := .struct py!"atop_2_8.GEN" (.ofList [
    (py!"tgid", c_int),
    (py!"pid", c_int),
    (py!"ppid", c_int),
    (py!"ruid", c_int),
    (py!"euid", c_int),
    (py!"suid", c_int),
    (py!"fsuid", c_int),
    (py!"rgid", c_int),
    (py!"egid", c_int),
    (py!"sgid", c_int),
    (py!"fsgid", c_int),
    (py!"nthr", c_int),
    (py!"name", (.array c_char (V2_8.PNAMLEN + 1))),
    (py!"isproc", c_char),
    (py!"state", c_char),
    (py!"excode", c_int),
    (py!"btime", time_t),
    (py!"elaps", time_t),
    (py!"cmdline", (.array c_char (V2_8.CMDLEN + 1))),
    (py!"nthrslpi", c_int),
    (py!"nthrslpu", c_int),
    (py!"nthrrun", c_int),
    (py!"ctid", c_int),
    (py!"vpid", c_int),
    (py!"wasinactive", c_int),
    (py!"container", (.array c_char 16)),
    (py!"cgpath", (.array c_char V2_8.CGRLEN))]) []

/-- atoparser/structs/atop_2_8.py:499-524 -/
def V2_8.CPU : CType := .struct py!"atop_2_8.CPU" (.ofList [
    (py!"utime", count_t),
    (py!"stime", count_t),
    (py!"nice", c_int),
    (py!"prio", c_int),
    (py!"rtprio", c_int),
    (py!"policy", c_int),
    (py!"curcpu", c_int),
    (py!"sleepavg", c_int),
    (py!"cgcpuweight", c_int),
    (py!"cgcpumax", c_int),
    (py!"cgcpumaxr", c_int),
    (py!"ifuture", (.array c_int 3)),
    (py!"wchan", (.array c_char 16)),
    (py!"rundelay", count_t),
    (py!"blkdelay", count_t),
    (py!"cfuture", (.array count_t 3))]) []

/-- atoparser/structs/atop_2_8.py:527 -/
def V2_8.DSK : CType := V1_26.DSK

/-- atoparser/structs/atop_2_8.py:530-557 -/
def V2_8.MEM : CType := .struct py!"atop_2_8.MEM" (.ofList [
    (py!"minflt", count_t),
    (py!"majflt", count_t),
    (py!"vexec", count_t),
    (py!"vmem", count_t),
    (py!"rmem", count_t),
    (py!"pmem", count_t),
    (py!"vgrow", count_t),
    (py!"rgrow", count_t),
    (py!"vdata", count_t),
    (py!"vstack", count_t),
    (py!"vlibs", count_t),
    (py!"vswap", count_t),
    (py!"vlock", count_t),
    (py!"cgmemmax", count_t),
    (py!"cgmemmaxr", count_t),
    (py!"cgswpmax", count_t),
    (py!"cgswpmaxr", count_t),
    (py!"cfuture", (.array count_t 3))]) []

/-- atoparser/structs/atop_2_8.py:560 -/
def V2_8.NET : CType := V2_3.NET

/-- atoparser/structs/atop_2_8.py:563 -/
def V2_8.GPU : CType := V2_4.GPU

/-- atoparser/structs/atop_2_8.py:566-580 -/
def V2_8.TStat : CType := .struct py!"atop_2_8.TStat" (.ofList [
    (py!"gen", V2_8.GEN),
    (py!"cpu", V2_8.CPU),
    (py!"dsk", V2_8.DSK),
    (py!"mem", V2_8.MEM),
    (py!"net", V2_8.NET),
    (py!"gpu", V2_8.GPU)]) []

/-- atoparser/structs/atop_2_8.py:583-616 -/
def V2_8.Header : HeaderClass where
  supportedVersion := py!"2.8"
  fields := .ofList [
    (py!"magic", c_uint),
    (py!"aversion", c_ushort),
    (py!"future1", c_ushort),
    (py!"future2", c_ushort),
    (py!"rawheadlen", c_ushort),
    (py!"rawreclen", c_ushort),
    (py!"hertz", c_ushort),
    (py!"pidwidth", c_ushort),
    (py!"sfuture", (.array c_ushort 5)),
    (py!"sstatlen", c_uint),
    (py!"tstatlen", c_uint),
    (py!"utsname", Shared.UTSName),
    (py!"cfuture", (.array c_char 8)),
    (py!"pagesize", c_uint),
    (py!"supportflags", c_int),
    (py!"osrel", c_int),
    (py!"osvers", c_int),
    (py!"ossub", c_int),
    (py!"ifuture", (.array c_int 6))]
  Record := V2_8.Record
  SStat := V2_8.SStat
  TStat := V2_8.TStat
  CStat := none

end Atop
