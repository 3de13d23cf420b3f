-- GENERATED by tools/gen_structs.py from /repo/atoparser/structs/atop_2_11.py (read as text). Do not edit.
import Verif.Model.Structs.Shared
import Verif.Model.Structs.V1_26
import Verif.Model.Structs.V2_10
import Verif.Model.Structs.V2_3
import Verif.Model.Structs.V2_4
import Verif.Model.Structs.V2_7
import Verif.Model.Structs.V2_8

namespace Atop

/-- atoparser/structs/atop_2_11.py:35 -/
abbrev V2_11.ACCTACTIVE : Nat := 1

/-- atoparser/structs/atop_2_11.py:36 -/
abbrev V2_11.IOSTAT : Nat := 4

/-- atoparser/structs/atop_2_11.py:37 -/
abbrev V2_11.NETATOP : Nat := 16

/-- atoparser/structs/atop_2_11.py:38 -/
abbrev V2_11.NETATOPD : Nat := 32

/-- atoparser/structs/atop_2_11.py:39 -/
abbrev V2_11.CONTAINERSTAT : Nat := 64

/-- atoparser/structs/atop_2_11.py:40 -/
abbrev V2_11.GPUSTAT : Nat := 128

/-- atoparser/structs/atop_2_11.py:41 -/
abbrev V2_11.CGROUPV2 : Nat := 256

/-- atoparser/structs/atop_2_11.py:42 -/
abbrev V2_11.NETATOPBPF : Nat := 4096

/-- atoparser/structs/atop_2_11.py:45 -/
abbrev V2_11.PNAMLEN : Nat := 15

/-- atoparser/structs/atop_2_11.py:46 -/
abbrev V2_11.CMDLEN : Nat := 255

/-- atoparser/structs/atop_2_11.py:47 -/
abbrev V2_11.CGRLEN : Nat := 64

/-- atoparser/structs/atop_2_11.py:48 -/
abbrev V2_11.UTSLEN : Nat := 15

/-- atoparser/structs/atop_2_11.py:51 -/
abbrev V2_11.MAXCPU : Nat := 2048

/-- atoparser/structs/atop_2_11.py:52 -/
abbrev V2_11.MAXDSK : Nat := 1024

/-- atoparser/structs/atop_2_11.py:53 -/
abbrev V2_11.MAXNUMA : Nat := 1024

/-- atoparser/structs/atop_2_11.py:54 -/
abbrev V2_11.MAXLVM : Nat := 2048

/-- atoparser/structs/atop_2_11.py:55 -/
abbrev V2_11.MAXMDD : Nat := 256

/-- atoparser/structs/atop_2_11.py:56 -/
abbrev V2_11.MAXINTF : Nat := 128

/-- atoparser/structs/atop_2_11.py:57 -/
abbrev V2_11.MAXCONTAINER : Nat := 128

/-- atoparser/structs/atop_2_11.py:58 -/
abbrev V2_11.MAXNFSMOUNT : Nat := 64

/-- atoparser/structs/atop_2_11.py:59 -/
abbrev V2_11.MAXIBPORT : Nat := 32

/-- atoparser/structs/atop_2_11.py:60 -/
abbrev V2_11.MAXGPU : Nat := 32

/-- atoparser/structs/atop_2_11.py:61 -/
abbrev V2_11.MAXGPUBUS : Nat := 12

/-- atoparser/structs/atop_2_11.py:62 -/
abbrev V2_11.MAXGPUTYPE : Nat := 12

/-- atoparser/structs/atop_2_11.py:63 -/
abbrev V2_11.MAXLLC : Nat := 256

/-- atoparser/structs/atop_2_11.py:64 -/
abbrev V2_11.MAXDKNAM : Nat := 32

/-- atoparser/structs/atop_2_11.py:65 -/
abbrev V2_11.MAXIBNAME : Nat := 12

/-- atoparser/structs/atop_2_11.py:68-99 -/
def V2_11.Record : CType := .struct py!"atop_2_11.Record" (.ofList [
    (py!"curtime", time_t),
    (py!"flags", c_ushort),
    (py!"ncgroups", c_ushort),
    (py!"sfuture", (.array c_ushort 2)),
    (py!"scomplen", c_uint),
    (py!"pcomplen", c_uint),
    (py!"interval", c_uint),
    (py!"ndeviat", c_uint),
    (py!"nactproc", c_uint),
    (py!"ntask", c_uint),
    (py!"totproc", c_uint),
    (py!"totrun", c_uint),
    (py!"totslpi", c_uint),
    (py!"totslpu", c_uint),
    (py!"totzomb", c_uint),
    (py!"nexit", c_uint),
    (py!"noverflow", c_uint),
    (py!"totidle", c_uint),
    (py!"ccomplen", c_uint),
    (py!"coriglen", c_uint),
    (py!"ncgpids", c_uint),
    (py!"icomplen", c_uint),
    (py!"ifuture", c_uint)]) []

/-- atoparser/structs/atop_2_11.py:102-157 -/
def V2_11.MemStat : CType := .struct py!"atop_2_11.MemStat" (.ofList [
    (py!"physmem", count_t),
    (py!"freemem", count_t),
    (py!"buffermem", count_t),
    (py!"slabmem", count_t),
    (py!"cachemem", count_t),
    (py!"cachedrt", count_t),
    (py!"totswap", count_t),
    (py!"freeswap", count_t),
    (py!"pgscans", count_t),
    (py!"pgsteal", count_t),
    (py!"allocstall", count_t),
    (py!"swouts", count_t),
    (py!"swins", count_t),
    (py!"tcpsock", count_t),
    (py!"udpsock", count_t),
    (py!"commitlim", count_t),
    (py!"committed", count_t),
    (py!"shmem", count_t),
    (py!"shmrss", count_t),
    (py!"shmswp", count_t),
    (py!"slabreclaim", count_t),
    (py!"stothugepage", count_t),
    (py!"sfreehugepage", count_t),
    (py!"shugepagesz", count_t),
    (py!"vmwballoon", count_t),
    (py!"zfsarcsize", count_t),
    (py!"swapcached", count_t),
    (py!"ksmsharing", count_t),
    (py!"ksmshared", count_t),
    (py!"zswapped", count_t),
    (py!"zswap", count_t),
    (py!"oomkills", count_t),
    (py!"compactstall", count_t),
    (py!"pgmigrate", count_t),
    (py!"numamigrate", count_t),
    (py!"pgouts", count_t),
    (py!"pgins", count_t),
    (py!"pagetables", count_t),
    (py!"zswouts", count_t),
    (py!"zswins", count_t),
    (py!"ltothugepage", count_t),
    (py!"lfreehugepage", count_t),
    (py!"lhugepagesz", count_t),
    (py!"availablemem", count_t),
    (py!"anonhugepage", count_t),
    (py!"cfuture", (.array count_t 5))]) []

/-- atoparser/structs/atop_2_11.py:160-183 -/
def V2_11.MemPerNUMA : CType := .struct py!"atop_2_11.MemPerNUMA" (.ofList [
    (py!"numanr", c_int),
    (py!"frag", c_float),
    (py!"totmem", count_t),
    (py!"freemem", count_t),
    (py!"filepage", count_t),
    (py!"dirtymem", count_t),
    (py!"slabmem", count_t),
    (py!"slabreclaim", count_t),
    (py!"active", count_t),
    (py!"inactive", count_t),
    (py!"shmem", count_t),
    (py!"tothp", count_t),
    (py!"freehp", count_t),
    (py!"cfuture", (.array count_t 2))]) []

/-- atoparser/structs/atop_2_11.py:186-198 -/
def V2_11.MemNUMA : CType := .struct py!"atop_2_11.MemNUMA" (.ofList [
    (py!"nrnuma", count_t),
    (py!"numa", (.array V2_11.MemPerNUMA V2_11.MAXNUMA))]) [(py!"numa", py!"nrnuma")]

/-- atoparser/structs/atop_2_11.py:201-222 -/
def V2_11.CPUPerNUMA : CType := .struct py!"atop_2_11.CPUPerNUMA" (.ofList [
    (py!"numanr", c_int),
    (py!"nrcpu", count_t),
    (py!"stime", count_t),
    (py!"utime", count_t),
    (py!"ntime", count_t),
    (py!"itime", count_t),
    (py!"wtime", count_t),
    (py!"Itime", count_t),
    (py!"Stime", count_t),
    (py!"steal", count_t),
    (py!"guest", count_t),
    (py!"cfuture", (.array count_t 2))]) []

/-- atoparser/structs/atop_2_11.py:225-237 -/
def V2_11.CPUNUMA : CType := .struct py!"atop_2_11.CPUNUMA" (.ofList [
    (py!"nrnuma", count_t),
    (py!"numa", (.array V2_11.CPUPerNUMA V2_11.MAXNUMA))]) [(py!"numa", py!"nrnuma")]

/-- atoparser/structs/atop_2_11.py:240 -/
def V2_11.FreqCnt : CType := V1_26.FreqCnt

/-- atoparser/structs/atop_2_11.py:243 -/
def V2_11.PerCPU : CType := V2_7.PerCPU

/-- atoparser/structs/atop_2_11.py:246 -/
def V2_11.CPUStat : CType := V2_7.CPUStat

/-- atoparser/structs/atop_2_11.py:249 -/
def V2_11.PerDSK : CType := V2_8.PerDSK

/-- atoparser/structs/atop_2_11.py:252 -/
def V2_11.DSKStat : CType := V2_8.DSKStat

/-- atoparser/structs/atop_2_11.py:255 -/
def V2_11.PerIntf : CType := V2_3.PerIntf

/-- atoparser/structs/atop_2_11.py:258 -/
def V2_11.IntfStat : CType := V2_3.IntfStat

/-- atoparser/structs/atop_2_11.py:261 -/
def V2_11.PerNFSMount : CType := V2_3.PerNFSMount

/-- atoparser/structs/atop_2_11.py:264 -/
def V2_11.Server : CType := V2_3.Server

/-- atoparser/structs/atop_2_11.py:267 -/
def V2_11.Client : CType := V2_3.Client

/-- atoparser/structs/atop_2_11.py:270 -/
def V2_11.NFSMounts : CType := V2_3.NFSMounts

/-- atoparser/structs/atop_2_11.py:273 -/
def V2_11.NFSStat : CType := V2_3.NFSStat

/-- atoparser/structs/atop_2_11.py:276 -/
def V2_11.PSI : CType := V2_4.PSI

/-- atoparser/structs/atop_2_11.py:279 -/
def V2_11.Pressure : CType := V2_4.Pressure

/-- atoparser/structs/atop_2_11.py:282 -/
def V2_11.PerContainer : CType := V2_3.PerContainer

/-- atoparser/structs/atop_2_11.py:285 -/
def V2_11.ContStat : CType := V2_3.ContStat

/-- atoparser/structs/atop_2_11.py:288 -/
def V2_11.WWWStat : CType := V1_26.WWWStat

/-- atoparser/structs/atop_2_11.py:291 -/
def V2_11.PerGPU : CType := V2_4.PerGPU

/-- atoparser/structs/atop_2_11.py:294 -/
def V2_11.GPUStat : CType := V2_4.GPUStat

/-- atoparser/structs/atop_2_11.py:297-315 -/
def V2_11.PerIFB : CType := .struct py!"atop_2_11.PerIFB" (.ofList [
    (py!"ibname", (.array c_char V2_11.MAXIBNAME)),
    (py!"portnr", c_short),
    (py!"lanes", c_short),
    (py!"rate", count_t),
    (py!"rcvb", count_t),
    (py!"sndb", count_t),
    (py!"rcvp", count_t),
    (py!"sndp", count_t),
    (py!"cfuture", (.array count_t 4))]) []

/-- atoparser/structs/atop_2_11.py:318-332 -/
def V2_11.IFBStat : CType := .struct py!"atop_2_11.IFBStat" (.ofList [
    (py!"nrports", c_int),
    (py!"ifb", (.array V2_11.PerIFB V2_11.MAXIBPORT))]) [(py!"ifb", py!"nrports")]

/-- atoparser/structs/atop_2_11.py:335 -/
def V2_11.PerLLC : CType := V2_8.PerLLC

/-- atoparser/structs/atop_2_11.py:338 -/
def V2_11.LLCStat : CType := V2_8.LLCStat

/-- atoparser/structs/atop_2_11.py:341 -/
def V2_11.IPv4Stats : CType := V1_26.IPv4Stats

/-- atoparser/structs/atop_2_11.py:344 -/
def V2_11.ICMPv4Stats : CType := V2_8.ICMPv4Stats

/-- atoparser/structs/atop_2_11.py:347 -/
def V2_11.UDPv4Stats : CType := V1_26.UDPv4Stats

/-- atoparser/structs/atop_2_11.py:350 -/
def V2_11.TCPStats : CType := V2_10.TCPStats

/-- atoparser/structs/atop_2_11.py:353 -/
def V2_11.IPv6Stats : CType := V1_26.IPv6Stats

/-- atoparser/structs/atop_2_11.py:356 -/
def V2_11.ICMPv6Stats : CType := V1_26.ICMPv6Stats

/-- atoparser/structs/atop_2_11.py:359 -/
def V2_11.UDPv6Stats : CType := V1_26.UDPv6Stats

/-- atoparser/structs/atop_2_11.py:362 -/
def V2_11.NETStat : CType := V2_10.NETStat

/-- atoparser/structs/atop_2_11.py:365-387 -/
def V2_11.SStat : CType := .struct py!"atop_2_11.SStat" (.ofList [
    (py!"cpu", V2_11.CPUStat),
    (py!"mem", V2_11.MemStat),
    (py!"net", V2_11.NETStat),
    (py!"intf", V2_11.IntfStat),
    (py!"memnuma", V2_11.MemNUMA),
    (py!"cpunuma", V2_11.CPUNUMA),
    (py!"dsk", V2_11.DSKStat),
    (py!"nfs", V2_11.NFSStat),
    (py!"cfs", V2_11.ContStat),
    (py!"psi", V2_11.Pressure),
    (py!"gpu", V2_11.GPUStat),
    (py!"ifb", V2_11.IFBStat),
    (py!"llc", V2_11.LLCStat),
    (py!"www", V2_11.WWWStat)]) []

/-- atoparser/structs/atop_2_11.py:390-428 -/
def V2_11.GEN : CType := .struct py!"atop_2_11.GEN" (.ofList [
    (py!"tgid", c_int),
    (py!"pid", c_int),
    (py!"ppid", c_int),
    (py!"ruid", c_int),
    (py!"euid", c_int),
    (py!"suid", c_int),
    (py!"fsuid", c_int),
    (py!"rgid", c_int),
    (py!"egid", c_int),
    (py!"sgid", c_int),
    (py!"fsgid", c_int),
    (py!"nthr", c_int),
    (py!"name", (.array c_char (V2_11.PNAMLEN + 1))),
    (py!"isproc", c_char),
    (py!"state", c_char),
    (py!"excode", c_int),
    (py!"btime", time_t),
    (py!"elaps", time_t),
    (py!"cmdline", (.array c_char (V2_11.CMDLEN + 1))),
    (py!"nthrslpi", c_int),
    (py!"nthrslpu", c_int),
    (py!"nthrrun", c_int),
    (py!"nthridle", c_int),
    (py!"ctid", c_int),
    (py!"vpid", c_int),
    (py!"wasinactive", c_int),
    (py!"utsname", (.array c_char (V2_11.UTSLEN + 1))),
    (py!"cgroupix", c_int),
    (py!"ifuture", (.array c_int 4))]) []

/-- atoparser/structs/atop_2_11.py:431-455 -/
def V2_11.CPU : CType := .struct py!"atop_2_11.CPU" (.ofList [
    (py!"utime", count_t),
    (py!"stime", count_t),
    (py!"nice", c_int),
    (py!"prio", c_int),
    (py!"rtprio", c_int),
    (py!"policy", c_int),
    (py!"curcpu", c_int),
    (py!"sleepavg", c_int),
    (py!"ifuture", (.array c_int 6)),
    (py!"wchan", (.array c_char 16)),
    (py!"rundelay", count_t),
    (py!"blkdelay", count_t),
    (py!"nvcsw", count_t),
    (py!"nivcsw", count_t),
    (py!"cfuture", (.array count_t 3))]) []

/-- atoparser/structs/atop_2_11.py:458 -/
def V2_11.DSK : CType := V1_26.DSK

/-- atoparser/structs/atop_2_11.py:461-484 -/
def V2_11.MEM : CType := .struct py!"atop_2_11.MEM" (.ofList [
    (py!"minflt", count_t),
    (py!"majflt", count_t),
    (py!"vexec", count_t),
    (py!"vmem", count_t),
    (py!"rmem", count_t),
    (py!"pmem", count_t),
    (py!"vgrow", count_t),
    (py!"rgrow", count_t),
    (py!"vdata", count_t),
    (py!"vstack", count_t),
    (py!"vlibs", count_t),
    (py!"vswap", count_t),
    (py!"vlock", count_t),
    (py!"cfuture", (.array count_t 7))]) []

/-- atoparser/structs/atop_2_11.py:487 -/
def V2_11.NET : CType := V2_3.NET

/-- atoparser/structs/atop_2_11.py:490-510 -/
def V2_11.GPU : CType := .struct py!"atop_2_11.GPU" (.ofList [
    (py!"state", c_char),
    (py!"bfuture", (.array c_char 3)),
    (py!"nrgpus", c_short),
    (py!"gpulist", c_int32),
    (py!"gpubusy", c_int),
    (py!"membusy", c_int),
    (py!"timems", count_t),
    (py!"memnow", count_t),
    (py!"memcum", count_t),
    (py!"sample", count_t),
    (py!"cfuture", (.array count_t 3))]) []

/-- atoparser/structs/atop_2_11.py:513-527 -/
def V2_11.TStat : CType := .struct py!"atop_2_11.TStat" (.ofList [
    (py!"gen", V2_11.GEN),
    (py!"cpu", V2_11.CPU),
    (py!"dsk", V2_11.DSK),
    (py!"mem", V2_11.MEM),
    (py!"net", V2_11.NET),
    (py!"gpu", V2_11.GPU)]) []

/-- atoparser/structs/atop_2_11.py:530-550 -/
def V2_11.CGGen : CType := .struct py!"atop_2_11.CGGen" (.ofList [
    (py!"structlen", c_int),
    (py!"sequence", c_int),
    (py!"parentseq", c_int),
    (py!"depth", c_int),
    (py!"nprocs", c_int),
    (py!"procsbelow", c_int),
    (py!"namelen", c_int),
    (py!"fullnamelen", c_int),
    (py!"ifuture", (.array c_int 4)),
    (py!"namehash", c_long),
    (py!"lfuture", (.array c_long 4))]) []

/-- atoparser/structs/atop_2_11.py:553-569 -/
def V2_11.CGConf : CType := .struct py!"atop_2_11.CGConf" (.ofList [
    (py!"cpuweight", c_int),
    (py!"cpumax", c_int),
    (py!"memmax", count_t),
    (py!"swpmax", count_t),
    (py!"dskweight", c_int),
    (py!"ifuture", (.array c_int 5)),
    (py!"cfuture", (.array count_t 5))]) []

/-- atoparser/structs/atop_2_11.py:572-586 -/
def V2_11.CGCPU : CType := .struct py!"atop_2_11.CGCPU" (.ofList [
    (py!"utime", count_t),
    (py!"stime", count_t),
    (py!"somepres", count_t),
    (py!"fullpres", count_t),
    (py!"cfuture", (.array count_t 5))]) []

/-- atoparser/structs/atop_2_11.py:589-606 -/
def V2_11.CGMem : CType := .struct py!"atop_2_11.CGMem" (.ofList [
    (py!"current", count_t),
    (py!"anon", count_t),
    (py!"file", count_t),
    (py!"kernel", count_t),
    (py!"shmem", count_t),
    (py!"somepres", count_t),
    (py!"fullpres", count_t),
    (py!"cfuture", (.array count_t 5))]) []

/-- atoparser/structs/atop_2_11.py:609-625 -/
def V2_11.CGDSK : CType := .struct py!"atop_2_11.CGDSK" (.ofList [
    (py!"rbytes", count_t),
    (py!"wbytes", count_t),
    (py!"rios", count_t),
    (py!"wios", count_t),
    (py!"somepres", count_t),
    (py!"fullpres", count_t),
    (py!"cfuture", (.array count_t 5))]) []

/-- atoparser/structs/atop_2_11.py:628-642 -/
def V2_11.CStat : CType := .struct py!"atop_2_11.CStat" (.ofList [
    (py!"gen", V2_11.CGGen),
    (py!"conf", V2_11.CGConf),
    (py!"cpu", V2_11.CGCPU),
    (py!"mem", V2_11.CGMem),
    (py!"dsk", V2_11.CGDSK),
    (py!"cgname", (.array c_char 0))]) []

/-- atoparser/structs/atop_2_11.py:671-705 -/
def V2_11.Header : HeaderClass where
  supportedVersion := py!"2.11"
  fields := .ofList [
    (py!"magic", c_uint),
    (py!"aversion", c_ushort),
    (py!"future1", c_ushort),
    (py!"future2", c_ushort),
    (py!"rawheadlen", c_ushort),
    (py!"rawreclen", c_ushort),
    (py!"hertz", c_ushort),
    (py!"pidwidth", c_ushort),
    (py!"sfuture", (.array c_ushort 5)),
    (py!"sstatlen", c_uint),
    (py!"tstatlen", c_uint),
    (py!"utsname", Shared.UTSName),
    (py!"cfuture", (.array c_char 8)),
    (py!"pagesize", c_uint),
    (py!"supportflags", c_int),
    (py!"osrel", c_int),
    (py!"osvers", c_int),
    (py!"ossub", c_int),
    (py!"cstatlen", c_int),
    (py!"ifuture", (.array c_int 5))]
  Record := V2_11.Record
  SStat := V2_11.SStat
  TStat := V2_11.TStat
  CStat := some V2_11.CStat

end Atop
