-- GENERATED by tools/gen_structs.py from /repo/atoparser/structs/atop_2_3.py (read as text). Do not edit.
import Verif.Model.Structs.Shared
import Verif.Model.Structs.V1_26

namespace Atop

/-- atoparser/structs/atop_2_3.py:29 -/
abbrev V2_3.ACCTACTIVE : Nat := 1

/-- atoparser/structs/atop_2_3.py:30 -/
abbrev V2_3.IOSTAT : Nat := 4

/-- atoparser/structs/atop_2_3.py:31 -/
abbrev V2_3.NETATOP : Nat := 16

/-- atoparser/structs/atop_2_3.py:32 -/
abbrev V2_3.NETATOPD : Nat := 32

/-- atoparser/structs/atop_2_3.py:33 -/
abbrev V2_3.DOCKSTAT : Nat := 64

/-- atoparser/structs/atop_2_3.py:36 -/
abbrev V2_3.PNAMLEN : Nat := 15

/-- atoparser/structs/atop_2_3.py:37 -/
abbrev V2_3.CMDLEN : Nat := 255

/-- atoparser/structs/atop_2_3.py:40 -/
abbrev V2_3.MAXCPU : Nat := 2048

/-- atoparser/structs/atop_2_3.py:41 -/
abbrev V2_3.MAXDSK : Nat := 1024

/-- atoparser/structs/atop_2_3.py:42 -/
abbrev V2_3.MAXLVM : Nat := 2048

/-- atoparser/structs/atop_2_3.py:43 -/
abbrev V2_3.MAXMDD : Nat := 256

/-- atoparser/structs/atop_2_3.py:44 -/
abbrev V2_3.MAXINTF : Nat := 128

/-- atoparser/structs/atop_2_3.py:45 -/
abbrev V2_3.MAXCONTAINER : Nat := 128

/-- atoparser/structs/atop_2_3.py:46 -/
abbrev V2_3.MAXNFSMOUNT : Nat := 64

/-- atoparser/structs/atop_2_3.py:47 -/
abbrev V2_3.MAXDKNAM : Nat := 32

/-- atoparser/structs/atop_2_3.py:50-75 -/
def V2_3.Record : CType := .struct py!"atop_2_3.Record" (.ofList [
    (py!"curtime", time_t),
    (py!"flags", c_ushort),
    (py!"sfuture", (.array c_ushort 3)),
    (py!"scomplen", c_uint),
    (py!"pcomplen", c_uint),
    (py!"interval", c_uint),
    (py!"ndeviat", c_uint),
    (py!"nactproc", c_uint),
    (py!"ntask", c_uint),
    (py!"totproc", c_uint),
    (py!"totrun", c_uint),
    (py!"totslpi", c_uint),
    (py!"totslpu", c_uint),
    (py!"totzomb", c_uint),
    (py!"nexit", c_uint),
    (py!"noverflow", c_uint),
    (py!"ifuture", (.array c_uint 6))]) []

/-- atoparser/structs/atop_2_3.py:78-111 -/
def V2_3.MemStat : CType := .struct py!"atop_2_3.MemStat" (.ofList [
    (py!"physmem", count_t),
    (py!"freemem", count_t),
    (py!"buffermem", count_t),
    (py!"slabmem", count_t),
    (py!"cachemem", count_t),
    (py!"cachedrt", count_t),
    (py!"totswap", count_t),
    (py!"freeswap", count_t),
    (py!"pgscans", count_t),
    (py!"pgsteal", count_t),
    (py!"allocstall", count_t),
    (py!"swouts", count_t),
    (py!"swins", count_t),
    (py!"commitlim", count_t),
    (py!"committed", count_t),
    (py!"shmem", count_t),
    (py!"shmrss", count_t),
    (py!"shmswp", count_t),
    (py!"slabreclaim", count_t),
    (py!"tothugepage", count_t),
    (py!"freehugepage", count_t),
    (py!"hugepagesz", count_t),
    (py!"vmwballoon", count_t),
    (py!"cfuture", (.array count_t 8))]) []

/-- atoparser/structs/atop_2_3.py:114 -/
def V2_3.FreqCnt : CType := V1_26.FreqCnt

/-- atoparser/structs/atop_2_3.py:117-138 -/
def V2_3.PerCPU : CType := .struct py!"atop_2_3.PerCPU" (.ofList [
    (py!"cpunr", c_int),
    (py!"stime", count_t),
    (py!"utime", count_t),
    (py!"ntime", count_t),
    (py!"itime", count_t),
    (py!"wtime", count_t),
    (py!"Itime", count_t),
    (py!"Stime", count_t),
    (py!"steal", count_t),
    (py!"guest", count_t),
    (py!"freqcnt", V2_3.FreqCnt),
    (py!"cfuture", (.array count_t 4))]) []

/-- atoparser/structs/atop_2_3.py:141-161 -/
def V2_3.CPUStat : CType := .struct py!"atop_2_3.CPUStat" (.ofList [
    (py!"nrcpu", count_t),
    (py!"devint", count_t),
    (py!"csw", count_t),
    (py!"nprocs", count_t),
    (py!"lavg1", c_float),
    (py!"lavg5", c_float),
    (py!"lavg15", c_float),
    (py!"cfuture", (.array count_t 4)),
    (py!"all", V2_3.PerCPU),
    (py!"cpu", (.array V2_3.PerCPU V2_3.MAXCPU))]) [(py!"cpu", py!"nrcpu")]

/-- atoparser/structs/atop_2_3.py:164-181 -/
def V2_3.PerDSK : CType := .struct py!"atop_2_3.PerDSK" (.ofList [
    (py!"name", (.array c_char V2_3.MAXDKNAM)),
    (py!"nread", count_t),
    (py!"nrsect", count_t),
    (py!"nwrite", count_t),
    (py!"nwsect", count_t),
    (py!"io_ms", count_t),
    (py!"avque", count_t),
    (py!"cfuture", (.array count_t 4))]) []

/-- atoparser/structs/atop_2_3.py:184-204 -/
def V2_3.DSKStat : CType := .struct py!"atop_2_3.DSKStat" (.ofList [
    (py!"ndsk", c_int),
    (py!"nmdd", c_int),
    (py!"nlvm", c_int),
    (py!"dsk", (.array V2_3.PerDSK V2_3.MAXDSK)),
    (py!"mdd", (.array V2_3.PerDSK V2_3.MAXMDD)),
    (py!"lvm", (.array V2_3.PerDSK V2_3.MAXLVM))]) [(py!"dsk", py!"ndsk"), (py!"mdd", py!"nmdd"), (py!"lvm", py!"nlvm")]

/-- atoparser/structs/atop_2_3.py:207-240 -/
def V2_3.PerIntf : CType := .struct py!"atop_2_3.PerIntf" (.ofList [
    (py!"name", (.array c_char 16)),
    (py!"rbyte", count_t),
    (py!"rpack", count_t),
    (py!"rerrs", count_t),
    (py!"rdrop", count_t),
    (py!"rfifo", count_t),
    (py!"rframe", count_t),
    (py!"rcompr", count_t),
    (py!"rmultic", count_t),
    (py!"rfuture", (.array count_t 4)),
    (py!"sbyte", count_t),
    (py!"spack", count_t),
    (py!"serrs", count_t),
    (py!"sdrop", count_t),
    (py!"sfifo", count_t),
    (py!"scollis", count_t),
    (py!"scarrier", count_t),
    (py!"scompr", count_t),
    (py!"sfuture", (.array count_t 4)),
    (py!"type", c_char),
    (py!"speed", c_long),
    (py!"speedp", c_long),
    (py!"duplex", c_char),
    (py!"cfuture", (.array count_t 4))]) []

/-- atoparser/structs/atop_2_3.py:243-257 -/
def V2_3.IntfStat : CType := .struct py!"atop_2_3.IntfStat" (.ofList [
    (py!"nrintf", c_int),
    (py!"intf", (.array V2_3.PerIntf V2_3.MAXINTF))]) [(py!"intf", py!"nrintf")]

/-- atoparser/structs/atop_2_3.py:260-280 -/
def V2_3.PerNFSMount : CType := .struct py!"atop_2_3.PerNFSMount" (.ofList [
    (py!"mountdev", (.array c_char 128)),
    (py!"age", count_t),
    (py!"bytesread", count_t),
    (py!"byteswrite", count_t),
    (py!"bytesdread", count_t),
    (py!"bytesdwrite", count_t),
    (py!"bytestotread", count_t),
    (py!"bytestotwrite", count_t),
    (py!"pagesmread", count_t),
    (py!"pagesmwrite", count_t),
    (py!"future", (.array count_t 8))]) []

/-- atoparser/structs/atop_2_3.py:283-308 -/
def V2_3.Server : CType := .struct py!"atop_2_3.Server" (.ofList [
    (py!"netcnt", count_t),
    (py!"netudpcnt", count_t),
    (py!"nettcpcnt", count_t),
    (py!"nettcpcon", count_t),
    (py!"rpccnt", count_t),
    (py!"rpcbadfmt", count_t),
    (py!"rpcbadaut", count_t),
    (py!"rpcbadcln", count_t),
    (py!"rpcread", count_t),
    (py!"rpcwrite", count_t),
    (py!"rchits", count_t),
    (py!"rcmiss", count_t),
    (py!"rcnoca", count_t),
    (py!"nrbytes", count_t),
    (py!"nwbytes", count_t),
    (py!"future", (.array count_t 8))]) []

/-- atoparser/structs/atop_2_3.py:311-326 -/
def V2_3.Client : CType := .struct py!"atop_2_3.Client" (.ofList [
    (py!"rpccnt", count_t),
    (py!"rpcretrans", count_t),
    (py!"rpcautrefresh", count_t),
    (py!"rpcread", count_t),
    (py!"rpcwrite", count_t),
    (py!"future", (.array count_t 8))]) []

/-- atoparser/structs/atop_2_3.py:329-343 -/
def V2_3.NFSMounts : CType := .struct py!"atop_2_3.NFSMounts" (.ofList [
    (py!"nrmounts", c_int),
    (py!"nfsmnt", (.array V2_3.PerNFSMount V2_3.MAXNFSMOUNT))]) [(py!"nfsmnt", py!"nrmounts")]

/-- atoparser/structs/atop_2_3.py:346-358 -/
def V2_3.NFSStat : CType := .struct py!"atop_2_3.NFSStat" (.ofList [
    (py!"server", V2_3.Server),
    (py!"client", V2_3.Client),
    (py!"nfsmounts", V2_3.NFSMounts)]) []

/-- atoparser/structs/atop_2_3.py:361-377 -/
def V2_3.PerContainer : CType := .struct py!"atop_2_3.PerContainer" (.ofList [
    (py!"ctid", c_ulong),
    (py!"numproc", c_ulong),
    (py!"system", count_t),
    (py!"user", count_t),
    (py!"nice", count_t),
    (py!"uptime", count_t),
    (py!"physpages", count_t)]) []

/-- atoparser/structs/atop_2_3.py:380-394 -/
def V2_3.ContStat : CType := .struct py!"atop_2_3.ContStat" (.ofList [
    (py!"nrcontainer", c_int),
    (py!"cont", (.array V2_3.PerContainer V2_3.MAXCONTAINER))]) [(py!"cont", py!"nrcontainer")]

/-- atoparser/structs/atop_2_3.py:397 -/
def V2_3.WWWStat : CType := V1_26.WWWStat

/-- atoparser/structs/atop_2_3.py:400 -/
def V2_3.IPv4Stats : CType := V1_26.IPv4Stats

/-- atoparser/structs/atop_2_3.py:403 -/
def V2_3.ICMPv4Stats : CType := V1_26.ICMPv4Stats

/-- atoparser/structs/atop_2_3.py:406 -/
def V2_3.UDPv4Stats : CType := V1_26.UDPv4Stats

/-- atoparser/structs/atop_2_3.py:409 -/
def V2_3.TCPStats : CType := V1_26.TCPStats

/-- atoparser/structs/atop_2_3.py:412 -/
def V2_3.IPv6Stats : CType := V1_26.IPv6Stats

/-- atoparser/structs/atop_2_3.py:415 -/
def V2_3.ICMPv6Stats : CType := V1_26.ICMPv6Stats

/-- atoparser/structs/atop_2_3.py:418 -/
def V2_3.UDPv6Stats : CType := V1_26.UDPv6Stats

/-- atoparser/structs/atop_2_3.py:421 -/
def V2_3.NETStat : CType := V1_26.NETStat

/-- atoparser/structs/atop_2_3.py:424-440 -/
def V2_3.SStat : CType := .struct py!"atop_2_3.SStat" (.ofList [
    (py!"cpu", V2_3.CPUStat),
    (py!"mem", V2_3.MemStat),
    (py!"net", V2_3.NETStat),
    (py!"intf", V2_3.IntfStat),
    (py!"dsk", V2_3.DSKStat),
    (py!"nfs", V2_3.NFSStat),
    (py!"cfs", V2_3.ContStat),
    (py!"www", V2_3.WWWStat)]) []

/-- atoparser/structs/atop_2_3.py:443-478 -/
def V2_3.GEN : CType := .struct py!"atop_2_3.GEN" (.ofList [
    (py!"tgid", c_int),
    (py!"pid", c_int),
    (py!"ppid", c_int),
    (py!"ruid", c_int),
    (py!"euid", c_int),
    (py!"suid", c_int),
    (py!"fsuid", c_int),
    (py!"rgid", c_int),
    (py!"egid", c_int),
    (py!"sgid", c_int),
    (py!"fsgid", c_int),
    (py!"nthr", c_int),
    (py!"name", (.array c_char (V2_3.PNAMLEN + 1))),
    (py!"isproc", c_char),
    (py!"state", c_char),
    (py!"excode", c_int),
    (py!"btime", time_t),
    (py!"elaps", time_t),
    (py!"cmdline", (.array c_char (V2_3.CMDLEN + 1))),
    (py!"nthrslpi", c_int),
    (py!"nthrslpu", c_int),
    (py!"nthrrun", c_int),
    (py!"ctid", c_int),
    (py!"vpid", c_int),
    (py!"wasinactive", c_int),
    (py!"container", (.array c_char 16))]) []

/-- atoparser/structs/atop_2_3.py:481 -/
def V2_3.CPU : CType := V1_26.CPU

/-- atoparser/structs/atop_2_3.py:484 -/
def V2_3.DSK : CType := V1_26.DSK

/-- atoparser/structs/atop_2_3.py:487-509 -/
def V2_3.MEM : CType := .struct py!"atop_2_3.MEM" (.ofList [
    (py!"minflt", count_t),
    (py!"majflt", count_t),
    (py!"vexec", count_t),
    (py!"vmem", count_t),
    (py!"rmem", count_t),
    (py!"pmem", count_t),
    (py!"vgrow", count_t),
    (py!"rgrow", count_t),
    (py!"vdata", count_t),
    (py!"vstack", count_t),
    (py!"vlibs", count_t),
    (py!"vswap", count_t),
    (py!"cfuture", (.array count_t 4))]) []

/-- atoparser/structs/atop_2_3.py:512-532 -/
def V2_3.NET : CType := .struct py!"atop_2_3.NET" (.ofList [
    (py!"tcpsnd", count_t),
    (py!"tcpssz", count_t),
    (py!"tcprcv", count_t),
    (py!"tcprsz", count_t),
    (py!"udpsnd", count_t),
    (py!"udpssz", count_t),
    (py!"udprcv", count_t),
    (py!"udprsz", count_t),
    (py!"avail1", count_t),
    (py!"avail2", count_t),
    (py!"cfuture", (.array count_t 4))]) []

/-- atoparser/structs/atop_2_3.py:535-548 -/
def V2_3.TStat : CType := .struct py!"atop_2_3.TStat" (.ofList [
    (py!"gen", V2_3.GEN),
    (py!"cpu", V2_3.CPU),
    (py!"dsk", V2_3.DSK),
    (py!"mem", V2_3.MEM),
    (py!"net", V2_3.NET)]) []

/-- atoparser/structs/atop_2_3.py:551-583 -/
def V2_3.Header : HeaderClass where
  supportedVersion := py!"2.3"
  fields := .ofList [
    (py!"magic", c_uint),
    (py!"aversion", c_ushort),
    (py!"future1", c_ushort),
    (py!"future2", c_ushort),
    (py!"rawheadlen", c_ushort),
    (py!"rawreclen", c_ushort),
    (py!"hertz", c_ushort),
    (py!"sfuture", (.array c_ushort 6)),
    (py!"sstatlen", c_uint),
    (py!"tstatlen", c_uint),
    (py!"utsname", Shared.UTSName),
    (py!"cfuture", (.array c_char 8)),
    (py!"pagesize", c_uint),
    (py!"supportflags", c_int),
    (py!"osrel", c_int),
    (py!"osvers", c_int),
    (py!"ossub", c_int),
    (py!"ifuture", (.array c_int 6))]
  Record := V2_3.Record
  SStat := V2_3.SStat
  TStat := V2_3.TStat
  CStat := none

end Atop
