-- GENERATED by tools/gen_structs.py from /repo/atoparser/structs/atop_1_26.py (read as text). Do not edit.
import Verif.Model.Structs.Shared

namespace Atop

/-- atoparser/structs/atop_1_26.py:27 -/
abbrev V1_26.ACCTACTIVE : Nat := 1

/-- atoparser/structs/atop_1_26.py:28 -/
abbrev V1_26.PATCHSTAT : Nat := 2

/-- atoparser/structs/atop_1_26.py:29 -/
abbrev V1_26.IOSTAT : Nat := 4

/-- atoparser/structs/atop_1_26.py:30 -/
abbrev V1_26.PATCHACCT : Nat := 8

/-- atoparser/structs/atop_1_26.py:33 -/
abbrev V1_26.PNAMLEN : Nat := 15

/-- atoparser/structs/atop_1_26.py:34 -/
abbrev V1_26.CMDLEN : Nat := 150

/-- atoparser/structs/atop_1_26.py:37 -/
abbrev V1_26.MAXCPU : Nat := 64

/-- atoparser/structs/atop_1_26.py:38 -/
abbrev V1_26.MAXDSK : Nat := 256

/-- atoparser/structs/atop_1_26.py:39 -/
abbrev V1_26.MAXLVM : Nat := 256

/-- atoparser/structs/atop_1_26.py:40 -/
abbrev V1_26.MAXMDD : Nat := 128

/-- atoparser/structs/atop_1_26.py:41 -/
abbrev V1_26.MAXDKNAM : Nat := 32

/-- atoparser/structs/atop_1_26.py:42 -/
abbrev V1_26.MAXINTF : Nat := 32

/-- atoparser/structs/atop_1_26.py:45-67 -/
def V1_26.Record : CType := .struct py!"atop_1_26.Record" (.ofList [
    (py!"curtime", time_t),
    (py!"flags", c_ushort),
    (py!"sfuture", (.array c_ushort 3)),
    (py!"scomplen", c_uint),
    (py!"pcomplen", c_uint),
    (py!"interval", c_uint),
    (py!"nlist", c_uint),
    (py!"npresent", c_uint),
    (py!"nexit", c_uint),
    (py!"ntrun", c_uint),
    (py!"ntslpi", c_uint),
    (py!"ntslpu", c_uint),
    (py!"nzombie", c_uint),
    (py!"ifuture", (.array c_uint 6))]) []

/-- atoparser/structs/atop_1_26.py:70-94 -/
def V1_26.MemStat : CType := .struct py!"atop_1_26.MemStat" (.ofList [
    (py!"physmem", count_t),
    (py!"freemem", count_t),
    (py!"buffermem", count_t),
    (py!"slabmem", count_t),
    (py!"cachemem", count_t),
    (py!"cachedrt", count_t),
    (py!"totswap", count_t),
    (py!"freeswap", count_t),
    (py!"pgscans", count_t),
    (py!"allocstall", count_t),
    (py!"swouts", count_t),
    (py!"swins", count_t),
    (py!"commitlim", count_t),
    (py!"committed", count_t),
    (py!"cfuture", (.array count_t 4))]) []

/-- atoparser/structs/atop_1_26.py:97-109 -/
def V1_26.FreqCnt : CType := .struct py!"atop_1_26.FreqCnt" (.ofList [
    (py!"maxfreq", count_t),
    (py!"cnt", count_t),
    (py!"ticks", count_t)]) []

/-- atoparser/structs/atop_1_26.py:112-133 -/
def V1_26.PerCPU : CType := .struct py!"atop_1_26.PerCPU" (.ofList [
    (py!"cpunr", c_int),
    (py!"stime", count_t),
    (py!"utime", count_t),
    (py!"ntime", count_t),
    (py!"itime", count_t),
    (py!"wtime", count_t),
    (py!"Itime", count_t),
    (py!"Stime", count_t),
    (py!"steal", count_t),
    (py!"guest", count_t),
    (py!"freqcnt", V1_26.FreqCnt),
    (py!"cfuture", (.array count_t 1))]) []

/-- atoparser/structs/atop_1_26.py:136-156 -/
def V1_26.CPUStat : CType := .struct py!"atop_1_26.CPUStat" (.ofList [
    (py!"nrcpu", count_t),
    (py!"devint", count_t),
    (py!"csw", count_t),
    (py!"nprocs", count_t),
    (py!"lavg1", c_float),
    (py!"lavg5", c_float),
    (py!"lavg15", c_float),
    (py!"cfuture", (.array count_t 4)),
    (py!"all", V1_26.PerCPU),
    (py!"cpu", (.array V1_26.PerCPU V1_26.MAXCPU))]) [(py!"cpu", py!"nrcpu")]

/-- atoparser/structs/atop_1_26.py:159-187 -/
def V1_26.IPv4Stats : CType := .struct py!"atop_1_26.IPv4Stats" (.ofList [
    (py!"Forwarding", count_t),
    (py!"DefaultTTL", count_t),
    (py!"InReceives", count_t),
    (py!"InHdrErrors", count_t),
    (py!"InAddrErrors", count_t),
    (py!"ForwDatagrams", count_t),
    (py!"InUnknownProtos", count_t),
    (py!"InDiscards", count_t),
    (py!"InDelivers", count_t),
    (py!"OutRequests", count_t),
    (py!"OutDiscards", count_t),
    (py!"OutNoRoutes", count_t),
    (py!"ReasmTimeout", count_t),
    (py!"ReasmReqds", count_t),
    (py!"ReasmOKs", count_t),
    (py!"ReasmFails", count_t),
    (py!"FragOKs", count_t),
    (py!"FragFails", count_t),
    (py!"FragCreates", count_t)]) []

/-- atoparser/structs/atop_1_26.py:190-225 -/
def V1_26.ICMPv4Stats : CType := .struct py!"atop_1_26.ICMPv4Stats" (.ofList [
    (py!"InMsgs", count_t),
    (py!"InErrors", count_t),
    (py!"InDestUnreachs", count_t),
    (py!"InTimeExcds", count_t),
    (py!"InParmProbs", count_t),
    (py!"InSrcQuenchs", count_t),
    (py!"InRedirects", count_t),
    (py!"InEchos", count_t),
    (py!"InEchoReps", count_t),
    (py!"InTimestamps", count_t),
    (py!"InTimestampReps", count_t),
    (py!"InAddrMasks", count_t),
    (py!"InAddrMaskReps", count_t),
    (py!"OutMsgs", count_t),
    (py!"OutErrors", count_t),
    (py!"OutDestUnreachs", count_t),
    (py!"OutTimeExcds", count_t),
    (py!"OutParmProbs", count_t),
    (py!"OutSrcQuenchs", count_t),
    (py!"OutRedirects", count_t),
    (py!"OutEchos", count_t),
    (py!"OutEchoReps", count_t),
    (py!"OutTimestamps", count_t),
    (py!"OutTimestampReps", count_t),
    (py!"OutAddrMasks", count_t),
    (py!"OutAddrMaskReps", count_t)]) []

/-- atoparser/structs/atop_1_26.py:228-241 -/
def V1_26.UDPv4Stats : CType := .struct py!"atop_1_26.UDPv4Stats" (.ofList [
    (py!"InDatagrams", count_t),
    (py!"NoPorts", count_t),
    (py!"InErrors", count_t),
    (py!"OutDatagrams", count_t)]) []

/-- atoparser/structs/atop_1_26.py:244-267 -/
def V1_26.TCPStats : CType := .struct py!"atop_1_26.TCPStats" (.ofList [
    (py!"RtoAlgorithm", count_t),
    (py!"RtoMin", count_t),
    (py!"RtoMax", count_t),
    (py!"MaxConn", count_t),
    (py!"ActiveOpens", count_t),
    (py!"PassiveOpens", count_t),
    (py!"AttemptFails", count_t),
    (py!"EstabResets", count_t),
    (py!"CurrEstab", count_t),
    (py!"InSegs", count_t),
    (py!"OutSegs", count_t),
    (py!"RetransSegs", count_t),
    (py!"InErrs", count_t),
    (py!"OutRsts", count_t)]) []

/-- atoparser/structs/atop_1_26.py:270-301 -/
def V1_26.IPv6Stats : CType := .struct py!"atop_1_26.IPv6Stats" (.ofList [
    (py!"Ip6InReceives", count_t),
    (py!"Ip6InHdrErrors", count_t),
    (py!"Ip6InTooBigErrors", count_t),
    (py!"Ip6InNoRoutes", count_t),
    (py!"Ip6InAddrErrors", count_t),
    (py!"Ip6InUnknownProtos", count_t),
    (py!"Ip6InTruncatedPkts", count_t),
    (py!"Ip6InDiscards", count_t),
    (py!"Ip6InDelivers", count_t),
    (py!"Ip6OutForwDatagrams", count_t),
    (py!"Ip6OutRequests", count_t),
    (py!"Ip6OutDiscards", count_t),
    (py!"Ip6OutNoRoutes", count_t),
    (py!"Ip6ReasmTimeout", count_t),
    (py!"Ip6ReasmReqds", count_t),
    (py!"Ip6ReasmOKs", count_t),
    (py!"Ip6ReasmFails", count_t),
    (py!"Ip6FragOKs", count_t),
    (py!"Ip6FragFails", count_t),
    (py!"Ip6FragCreates", count_t),
    (py!"Ip6InMcastPkts", count_t),
    (py!"Ip6OutMcastPkts", count_t)]) []

/-- atoparser/structs/atop_1_26.py:304-341 -/
def V1_26.ICMPv6Stats : CType := .struct py!"atop_1_26.ICMPv6Stats" (.ofList [
    (py!"Icmp6InMsgs", count_t),
    (py!"Icmp6InErrors", count_t),
    (py!"Icmp6InDestUnreachs", count_t),
    (py!"Icmp6InPktTooBigs", count_t),
    (py!"Icmp6InTimeExcds", count_t),
    (py!"Icmp6InParmProblems", count_t),
    (py!"Icmp6InEchos", count_t),
    (py!"Icmp6InEchoReplies", count_t),
    (py!"Icmp6InGroupMembQueries", count_t),
    (py!"Icmp6InGroupMembResponses", count_t),
    (py!"Icmp6InGroupMembReductions", count_t),
    (py!"Icmp6InRouterSolicits", count_t),
    (py!"Icmp6InRouterAdvertisements", count_t),
    (py!"Icmp6InNeighborSolicits", count_t),
    (py!"Icmp6InNeighborAdvertisements", count_t),
    (py!"Icmp6InRedirects", count_t),
    (py!"Icmp6OutMsgs", count_t),
    (py!"Icmp6OutDestUnreachs", count_t),
    (py!"Icmp6OutPktTooBigs", count_t),
    (py!"Icmp6OutTimeExcds", count_t),
    (py!"Icmp6OutParmProblems", count_t),
    (py!"Icmp6OutEchoReplies", count_t),
    (py!"Icmp6OutRouterSolicits", count_t),
    (py!"Icmp6OutNeighborSolicits", count_t),
    (py!"Icmp6OutNeighborAdvertisements", count_t),
    (py!"Icmp6OutRedirects", count_t),
    (py!"Icmp6OutGroupMembResponses", count_t),
    (py!"Icmp6OutGroupMembReductions", count_t)]) []

/-- atoparser/structs/atop_1_26.py:344-357 -/
def V1_26.UDPv6Stats : CType := .struct py!"atop_1_26.UDPv6Stats" (.ofList [
    (py!"Udp6InDatagrams", count_t),
    (py!"Udp6NoPorts", count_t),
    (py!"Udp6InErrors", count_t),
    (py!"Udp6OutDatagrams", count_t)]) []

/-- atoparser/structs/atop_1_26.py:360-376 -/
def V1_26.NETStat : CType := .struct py!"atop_1_26.NETStat" (.ofList [
    (py!"ipv4", V1_26.IPv4Stats),
    (py!"icmpv4", V1_26.ICMPv4Stats),
    (py!"udpv4", V1_26.UDPv4Stats),
    (py!"ipv6", V1_26.IPv6Stats),
    (py!"icmpv6", V1_26.ICMPv6Stats),
    (py!"udpv6", V1_26.UDPv6Stats),
    (py!"tcp", V1_26.TCPStats)]) []

/-- atoparser/structs/atop_1_26.py:379-396 -/
def V1_26.PerDSK : CType := .struct py!"atop_1_26.PerDSK" (.ofList [
    (py!"name", (.array c_char V1_26.MAXDKNAM)),
    (py!"nread", count_t),
    (py!"nrsect", count_t),
    (py!"nwrite", count_t),
    (py!"nwsect", count_t),
    (py!"io_ms", count_t),
    (py!"avque", count_t),
    (py!"cfuture", (.array count_t 4))]) []

/-- atoparser/structs/atop_1_26.py:399-419 -/
def V1_26.DSKStat : CType := .struct py!"atop_1_26.DSKStat" (.ofList [
    (py!"ndsk", c_int),
    (py!"nmdd", c_int),
    (py!"nlvm", c_int),
    (py!"dsk", (.array V1_26.PerDSK V1_26.MAXDSK)),
    (py!"mdd", (.array V1_26.PerDSK V1_26.MAXMDD)),
    (py!"lvm", (.array V1_26.PerDSK V1_26.MAXLVM))]) [(py!"dsk", py!"ndsk"), (py!"mdd", py!"nmdd"), (py!"lvm", py!"nlvm")]

/-- atoparser/structs/atop_1_26.py:422-453 -/
def V1_26.PerIntf : CType := .struct py!"atop_1_26.PerIntf" (.ofList [
    (py!"name", (.array c_char 16)),
    (py!"rbyte", count_t),
    (py!"rpack", count_t),
    (py!"rerrs", count_t),
    (py!"rdrop", count_t),
    (py!"rfifo", count_t),
    (py!"rframe", count_t),
    (py!"rcompr", count_t),
    (py!"rmultic", count_t),
    (py!"rfuture", (.array count_t 4)),
    (py!"sbyte", count_t),
    (py!"spack", count_t),
    (py!"serrs", count_t),
    (py!"sdrop", count_t),
    (py!"sfifo", count_t),
    (py!"scollis", count_t),
    (py!"scarrier", count_t),
    (py!"scompr", count_t),
    (py!"sfuture", (.array count_t 4)),
    (py!"speed", c_long),
    (py!"duplex", c_char),
    (py!"cfuture", (.array count_t 4))]) []

/-- atoparser/structs/atop_1_26.py:456-470 -/
def V1_26.IntfStat : CType := .struct py!"atop_1_26.IntfStat" (.ofList [
    (py!"nrintf", c_int),
    (py!"intf", (.array V1_26.PerIntf V1_26.MAXINTF))]) [(py!"intf", py!"nrintf")]

/-- atoparser/structs/atop_1_26.py:473-487 -/
def V1_26.WWWStat : CType := .struct py!"atop_1_26.WWWStat" (.ofList [
    (py!"accesses", count_t),
    (py!"totkbytes", count_t),
    (py!"uptime", count_t),
    (py!"bworkers", c_int),
    (py!"iworkers", c_int)]) []

/-- atoparser/structs/atop_1_26.py:490-504 -/
def V1_26.SStat : CType := .struct py!"atop_1_26.SStat" (.ofList [
    (py!"cpu", V1_26.CPUStat),
    (py!"mem", V1_26.MemStat),
    (py!"net", V1_26.NETStat),
    (py!"intf", V1_26.IntfStat),
    (py!"dsk", V1_26.DSKStat),
    (py!"www", V1_26.WWWStat)]) []

/-- atoparser/structs/atop_1_26.py:507-537 -/
def V1_26.GEN : CType := .struct py!"atop_1_26.GEN" (.ofList [
    (py!"pid", c_int),
    (py!"ppid", c_int),
    (py!"ruid", c_int),
    (py!"euid", c_int),
    (py!"suid", c_int),
    (py!"fsuid", c_int),
    (py!"rgid", c_int),
    (py!"egid", c_int),
    (py!"sgid", c_int),
    (py!"fsgid", c_int),
    (py!"nthr", c_int),
    (py!"name", (.array c_char (V1_26.PNAMLEN + 1))),
    (py!"state", c_char),
    (py!"excode", c_int),
    (py!"btime", time_t),
    (py!"elaps", time_t),
    (py!"cmdline", (.array c_char (V1_26.CMDLEN + 1))),
    (py!"nthrslpi", c_int),
    (py!"nthrslpu", c_int),
    (py!"nthrrun", c_int),
    (py!"ifuture", (.array c_int 1))]) []

/-- atoparser/structs/atop_1_26.py:540-559 -/
def V1_26.CPU : CType := .struct py!"atop_1_26.CPU" (.ofList [
    (py!"utime", count_t),
    (py!"stime", count_t),
    (py!"nice", c_int),
    (py!"prio", c_int),
    (py!"rtprio", c_int),
    (py!"policy", c_int),
    (py!"curcpu", c_int),
    (py!"sleepavg", c_int),
    (py!"ifuture", (.array c_int 4)),
    (py!"cfuture", (.array count_t 4))]) []

/-- atoparser/structs/atop_1_26.py:562-577 -/
def V1_26.DSK : CType := .struct py!"atop_1_26.DSK" (.ofList [
    (py!"rio", count_t),
    (py!"rsz", count_t),
    (py!"wio", count_t),
    (py!"wsz", count_t),
    (py!"cwsz", count_t),
    (py!"cfuture", (.array count_t 4))]) []

/-- atoparser/structs/atop_1_26.py:580-597 -/
def V1_26.MEM : CType := .struct py!"atop_1_26.MEM" (.ofList [
    (py!"minflt", count_t),
    (py!"majflt", count_t),
    (py!"shtext", count_t),
    (py!"vmem", count_t),
    (py!"rmem", count_t),
    (py!"vgrow", count_t),
    (py!"rgrow", count_t),
    (py!"cfuture", (.array count_t 4))]) []

/-- atoparser/structs/atop_1_26.py:600-620 -/
def V1_26.NET : CType := .struct py!"atop_1_26.NET" (.ofList [
    (py!"tcpsnd", count_t),
    (py!"tcpssz", count_t),
    (py!"tcprcv", count_t),
    (py!"tcprsz", count_t),
    (py!"udpsnd", count_t),
    (py!"udpssz", count_t),
    (py!"udprcv", count_t),
    (py!"udprsz", count_t),
    (py!"rawsnd", count_t),
    (py!"rawrcv", count_t),
    (py!"cfuture", (.array count_t 4))]) []

/-- atoparser/structs/atop_1_26.py:623-636 -/
def V1_26.PStat : CType := .struct py!"atop_1_26.PStat" (.ofList [
    (py!"gen", V1_26.GEN),
    (py!"cpu", V1_26.CPU),
    (py!"dsk", V1_26.DSK),
    (py!"mem", V1_26.MEM),
    (py!"net", V1_26.NET)]) []

/-- atoparser/structs/atop_1_26.py:640 -/
def V1_26.TStat : CType := V1_26.PStat

/-- atoparser/structs/atop_1_26.py:643-677 -/
def V1_26.Header : HeaderClass where
  supportedVersion := py!"1.26"
  fields := .ofList [
    (py!"magic", c_uint),
    (py!"aversion", c_ushort),
    (py!"future1", c_ushort),
    (py!"future2", c_ushort),
    (py!"rawheadlen", c_ushort),
    (py!"rawreclen", c_ushort),
    (py!"hertz", c_ushort),
    (py!"sfuture", (.array c_ushort 6)),
    (py!"sstatlen", c_uint),
    (py!"pstatlen", c_uint),
    (py!"utsname", Shared.UTSName),
    (py!"cfuture", (.array c_char 8)),
    (py!"pagesize", c_uint),
    (py!"supportflags", c_int),
    (py!"osrel", c_int),
    (py!"osvers", c_int),
    (py!"ossub", c_int),
    (py!"ifuture", (.array c_int 6))]
  Record := V1_26.Record
  SStat := V1_26.SStat
  TStat := V1_26.PStat
  CStat := none

end Atop
