import Verif.Source.Syntax
/-!
# The source text of atoparser/structs/atop_1_26.py, as syntax trees

Generated by tools/gen_source.py --structs; do not edit.
-/

set_option maxRecDepth 4000

namespace Atop.Src.Text.V1_26

/-- atoparser/structs/atop_1_26.py:45-67 -/
def Record : TopDecl := .class py!"Record" [(.attr (.glob py!"ctypes") py!"Structure")] [
  .assign py!"_fields_" (.list exprs![
    (.tuple exprs![(.const (.str py!"curtime")), (.glob py!"time_t")]),
    (.tuple exprs![(.const (.str py!"flags")), (.attr (.glob py!"ctypes") py!"c_ushort")]),
    (.tuple exprs![(.const (.str py!"sfuture")), (.bin .mul (.attr (.glob py!"ctypes") py!"c_ushort") (.const (.int 3)))]),
    (.tuple exprs![(.const (.str py!"scomplen")), (.attr (.glob py!"ctypes") py!"c_uint")]),
    (.tuple exprs![(.const (.str py!"pcomplen")), (.attr (.glob py!"ctypes") py!"c_uint")]),
    (.tuple exprs![(.const (.str py!"interval")), (.attr (.glob py!"ctypes") py!"c_uint")]),
    (.tuple exprs![(.const (.str py!"nlist")), (.attr (.glob py!"ctypes") py!"c_uint")]),
    (.tuple exprs![(.const (.str py!"npresent")), (.attr (.glob py!"ctypes") py!"c_uint")]),
    (.tuple exprs![(.const (.str py!"nexit")), (.attr (.glob py!"ctypes") py!"c_uint")]),
    (.tuple exprs![(.const (.str py!"ntrun")), (.attr (.glob py!"ctypes") py!"c_uint")]),
    (.tuple exprs![(.const (.str py!"ntslpi")), (.attr (.glob py!"ctypes") py!"c_uint")]),
    (.tuple exprs![(.const (.str py!"ntslpu")), (.attr (.glob py!"ctypes") py!"c_uint")]),
    (.tuple exprs![(.const (.str py!"nzombie")), (.attr (.glob py!"ctypes") py!"c_uint")]),
    (.tuple exprs![(.const (.str py!"ifuture")), (.bin .mul (.attr (.glob py!"ctypes") py!"c_uint") (.const (.int 6)))])])]

/-- atoparser/structs/atop_1_26.py:70-94 -/
def MemStat : TopDecl := .class py!"MemStat" [(.attr (.glob py!"ctypes") py!"Structure")] [
  .assign py!"_fields_" (.list exprs![
    (.tuple exprs![(.const (.str py!"physmem")), (.glob py!"count_t")]),
    (.tuple exprs![(.const (.str py!"freemem")), (.glob py!"count_t")]),
    (.tuple exprs![(.const (.str py!"buffermem")), (.glob py!"count_t")]),
    (.tuple exprs![(.const (.str py!"slabmem")), (.glob py!"count_t")]),
    (.tuple exprs![(.const (.str py!"cachemem")), (.glob py!"count_t")]),
    (.tuple exprs![(.const (.str py!"cachedrt")), (.glob py!"count_t")]),
    (.tuple exprs![(.const (.str py!"totswap")), (.glob py!"count_t")]),
    (.tuple exprs![(.const (.str py!"freeswap")), (.glob py!"count_t")]),
    (.tuple exprs![(.const (.str py!"pgscans")), (.glob py!"count_t")]),
    (.tuple exprs![(.const (.str py!"allocstall")), (.glob py!"count_t")]),
    (.tuple exprs![(.const (.str py!"swouts")), (.glob py!"count_t")]),
    (.tuple exprs![(.const (.str py!"swins")), (.glob py!"count_t")]),
    (.tuple exprs![(.const (.str py!"commitlim")), (.glob py!"count_t")]),
    (.tuple exprs![(.const (.str py!"committed")), (.glob py!"count_t")]),
    (.tuple exprs![(.const (.str py!"cfuture")), (.bin .mul (.glob py!"count_t") (.const (.int 4)))])])]

/-- atoparser/structs/atop_1_26.py:97-109 -/
def FreqCnt : TopDecl := .class py!"FreqCnt" [(.attr (.glob py!"ctypes") py!"Structure")] [
  .assign py!"_fields_" (.list exprs![
    (.tuple exprs![(.const (.str py!"maxfreq")), (.glob py!"count_t")]),
    (.tuple exprs![(.const (.str py!"cnt")), (.glob py!"count_t")]),
    (.tuple exprs![(.const (.str py!"ticks")), (.glob py!"count_t")])])]

/-- atoparser/structs/atop_1_26.py:112-133 -/
def PerCPU : TopDecl := .class py!"PerCPU" [(.attr (.glob py!"ctypes") py!"Structure")] [
  .assign py!"_fields_" (.list exprs![
    (.tuple exprs![(.const (.str py!"cpunr")), (.attr (.glob py!"ctypes") py!"c_int")]),
    (.tuple exprs![(.const (.str py!"stime")), (.glob py!"count_t")]),
    (.tuple exprs![(.const (.str py!"utime")), (.glob py!"count_t")]),
    (.tuple exprs![(.const (.str py!"ntime")), (.glob py!"count_t")]),
    (.tuple exprs![(.const (.str py!"itime")), (.glob py!"count_t")]),
    (.tuple exprs![(.const (.str py!"wtime")), (.glob py!"count_t")]),
    (.tuple exprs![(.const (.str py!"Itime")), (.glob py!"count_t")]),
    (.tuple exprs![(.const (.str py!"Stime")), (.glob py!"count_t")]),
    (.tuple exprs![(.const (.str py!"steal")), (.glob py!"count_t")]),
    (.tuple exprs![(.const (.str py!"guest")), (.glob py!"count_t")]),
    (.tuple exprs![(.const (.str py!"freqcnt")), (.glob py!"FreqCnt")]),
    (.tuple exprs![(.const (.str py!"cfuture")), (.bin .mul (.glob py!"count_t") (.const (.int 1)))])])]

/-- atoparser/structs/atop_1_26.py:136-156 -/
def CPUStat : TopDecl := .class py!"CPUStat" [(.attr (.glob py!"ctypes") py!"Structure")] [
  .assign py!"_fields_" (.list exprs![
    (.tuple exprs![(.const (.str py!"nrcpu")), (.glob py!"count_t")]),
    (.tuple exprs![(.const (.str py!"devint")), (.glob py!"count_t")]),
    (.tuple exprs![(.const (.str py!"csw")), (.glob py!"count_t")]),
    (.tuple exprs![(.const (.str py!"nprocs")), (.glob py!"count_t")]),
    (.tuple exprs![(.const (.str py!"lavg1")), (.attr (.glob py!"ctypes") py!"c_float")]),
    (.tuple exprs![(.const (.str py!"lavg5")), (.attr (.glob py!"ctypes") py!"c_float")]),
    (.tuple exprs![(.const (.str py!"lavg15")), (.attr (.glob py!"ctypes") py!"c_float")]),
    (.tuple exprs![(.const (.str py!"cfuture")), (.bin .mul (.glob py!"count_t") (.const (.int 4)))]),
    (.tuple exprs![(.const (.str py!"all")), (.glob py!"PerCPU")]),
    (.tuple exprs![(.const (.str py!"cpu")), (.bin .mul (.glob py!"PerCPU") (.glob py!"MAXCPU"))])]),
  .assign py!"fields_limiters" (.dict (.cons (.const (.str py!"cpu")) (.const (.str py!"nrcpu")) <| .nil))]

/-- atoparser/structs/atop_1_26.py:159-187 -/
def IPv4Stats : TopDecl := .class py!"IPv4Stats" [(.attr (.glob py!"ctypes") py!"Structure")] [
  .assign py!"_fields_" (.list exprs![
    (.tuple exprs![(.const (.str py!"Forwarding")), (.glob py!"count_t")]),
    (.tuple exprs![(.const (.str py!"DefaultTTL")), (.glob py!"count_t")]),
    (.tuple exprs![(.const (.str py!"InReceives")), (.glob py!"count_t")]),
    (.tuple exprs![(.const (.str py!"InHdrErrors")), (.glob py!"count_t")]),
    (.tuple exprs![(.const (.str py!"InAddrErrors")), (.glob py!"count_t")]),
    (.tuple exprs![(.const (.str py!"ForwDatagrams")), (.glob py!"count_t")]),
    (.tuple exprs![(.const (.str py!"InUnknownProtos")), (.glob py!"count_t")]),
    (.tuple exprs![(.const (.str py!"InDiscards")), (.glob py!"count_t")]),
    (.tuple exprs![(.const (.str py!"InDelivers")), (.glob py!"count_t")]),
    (.tuple exprs![(.const (.str py!"OutRequests")), (.glob py!"count_t")]),
    (.tuple exprs![(.const (.str py!"OutDiscards")), (.glob py!"count_t")]),
    (.tuple exprs![(.const (.str py!"OutNoRoutes")), (.glob py!"count_t")]),
    (.tuple exprs![(.const (.str py!"ReasmTimeout")), (.glob py!"count_t")]),
    (.tuple exprs![(.const (.str py!"ReasmReqds")), (.glob py!"count_t")]),
    (.tuple exprs![(.const (.str py!"ReasmOKs")), (.glob py!"count_t")]),
    (.tuple exprs![(.const (.str py!"ReasmFails")), (.glob py!"count_t")]),
    (.tuple exprs![(.const (.str py!"FragOKs")), (.glob py!"count_t")]),
    (.tuple exprs![(.const (.str py!"FragFails")), (.glob py!"count_t")]),
    (.tuple exprs![(.const (.str py!"FragCreates")), (.glob py!"count_t")])])]

/-- atoparser/structs/atop_1_26.py:190-225 -/
def ICMPv4Stats : TopDecl := .class py!"ICMPv4Stats" [(.attr (.glob py!"ctypes") py!"Structure")] [
  .assign py!"_fields_" (.list exprs![
    (.tuple exprs![(.const (.str py!"InMsgs")), (.glob py!"count_t")]),
    (.tuple exprs![(.const (.str py!"InErrors")), (.glob py!"count_t")]),
    (.tuple exprs![(.const (.str py!"InDestUnreachs")), (.glob py!"count_t")]),
    (.tuple exprs![(.const (.str py!"InTimeExcds")), (.glob py!"count_t")]),
    (.tuple exprs![(.const (.str py!"InParmProbs")), (.glob py!"count_t")]),
    (.tuple exprs![(.const (.str py!"InSrcQuenchs")), (.glob py!"count_t")]),
    (.tuple exprs![(.const (.str py!"InRedirects")), (.glob py!"count_t")]),
    (.tuple exprs![(.const (.str py!"InEchos")), (.glob py!"count_t")]),
    (.tuple exprs![(.const (.str py!"InEchoReps")), (.glob py!"count_t")]),
    (.tuple exprs![(.const (.str py!"InTimestamps")), (.glob py!"count_t")]),
    (.tuple exprs![(.const (.str py!"InTimestampReps")), (.glob py!"count_t")]),
    (.tuple exprs![(.const (.str py!"InAddrMasks")), (.glob py!"count_t")]),
    (.tuple exprs![(.const (.str py!"InAddrMaskReps")), (.glob py!"count_t")]),
    (.tuple exprs![(.const (.str py!"OutMsgs")), (.glob py!"count_t")]),
    (.tuple exprs![(.const (.str py!"OutErrors")), (.glob py!"count_t")]),
    (.tuple exprs![(.const (.str py!"OutDestUnreachs")), (.glob py!"count_t")]),
    (.tuple exprs![(.const (.str py!"OutTimeExcds")), (.glob py!"count_t")]),
    (.tuple exprs![(.const (.str py!"OutParmProbs")), (.glob py!"count_t")]),
    (.tuple exprs![(.const (.str py!"OutSrcQuenchs")), (.glob py!"count_t")]),
    (.tuple exprs![(.const (.str py!"OutRedirects")), (.glob py!"count_t")]),
    (.tuple exprs![(.const (.str py!"OutEchos")), (.glob py!"count_t")]),
    (.tuple exprs![(.const (.str py!"OutEchoReps")), (.glob py!"count_t")]),
    (.tuple exprs![(.const (.str py!"OutTimestamps")), (.glob py!"count_t")]),
    (.tuple exprs![(.const (.str py!"OutTimestampReps")), (.glob py!"count_t")]),
    (.tuple exprs![(.const (.str py!"OutAddrMasks")), (.glob py!"count_t")]),
    (.tuple exprs![(.const (.str py!"OutAddrMaskReps")), (.glob py!"count_t")])])]

/-- atoparser/structs/atop_1_26.py:228-241 -/
def UDPv4Stats : TopDecl := .class py!"UDPv4Stats" [(.attr (.glob py!"ctypes") py!"Structure")] [
  .assign py!"_fields_" (.list exprs![
    (.tuple exprs![(.const (.str py!"InDatagrams")), (.glob py!"count_t")]),
    (.tuple exprs![(.const (.str py!"NoPorts")), (.glob py!"count_t")]),
    (.tuple exprs![(.const (.str py!"InErrors")), (.glob py!"count_t")]),
    (.tuple exprs![(.const (.str py!"OutDatagrams")), (.glob py!"count_t")])])]

/-- atoparser/structs/atop_1_26.py:244-267 -/
def TCPStats : TopDecl := .class py!"TCPStats" [(.attr (.glob py!"ctypes") py!"Structure")] [
  .assign py!"_fields_" (.list exprs![
    (.tuple exprs![(.const (.str py!"RtoAlgorithm")), (.glob py!"count_t")]),
    (.tuple exprs![(.const (.str py!"RtoMin")), (.glob py!"count_t")]),
    (.tuple exprs![(.const (.str py!"RtoMax")), (.glob py!"count_t")]),
    (.tuple exprs![(.const (.str py!"MaxConn")), (.glob py!"count_t")]),
    (.tuple exprs![(.const (.str py!"ActiveOpens")), (.glob py!"count_t")]),
    (.tuple exprs![(.const (.str py!"PassiveOpens")), (.glob py!"count_t")]),
    (.tuple exprs![(.const (.str py!"AttemptFails")), (.glob py!"count_t")]),
    (.tuple exprs![(.const (.str py!"EstabResets")), (.glob py!"count_t")]),
    (.tuple exprs![(.const (.str py!"CurrEstab")), (.glob py!"count_t")]),
    (.tuple exprs![(.const (.str py!"InSegs")), (.glob py!"count_t")]),
    (.tuple exprs![(.const (.str py!"OutSegs")), (.glob py!"count_t")]),
    (.tuple exprs![(.const (.str py!"RetransSegs")), (.glob py!"count_t")]),
    (.tuple exprs![(.const (.str py!"InErrs")), (.glob py!"count_t")]),
    (.tuple exprs![(.const (.str py!"OutRsts")), (.glob py!"count_t")])])]

/-- atoparser/structs/atop_1_26.py:270-301 -/
def IPv6Stats : TopDecl := .class py!"IPv6Stats" [(.attr (.glob py!"ctypes") py!"Structure")] [
  .assign py!"_fields_" (.list exprs![
    (.tuple exprs![(.const (.str py!"Ip6InReceives")), (.glob py!"count_t")]),
    (.tuple exprs![(.const (.str py!"Ip6InHdrErrors")), (.glob py!"count_t")]),
    (.tuple exprs![(.const (.str py!"Ip6InTooBigErrors")), (.glob py!"count_t")]),
    (.tuple exprs![(.const (.str py!"Ip6InNoRoutes")), (.glob py!"count_t")]),
    (.tuple exprs![(.const (.str py!"Ip6InAddrErrors")), (.glob py!"count_t")]),
    (.tuple exprs![(.const (.str py!"Ip6InUnknownProtos")), (.glob py!"count_t")]),
    (.tuple exprs![(.const (.str py!"Ip6InTruncatedPkts")), (.glob py!"count_t")]),
    (.tuple exprs![(.const (.str py!"Ip6InDiscards")), (.glob py!"count_t")]),
    (.tuple exprs![(.const (.str py!"Ip6InDelivers")), (.glob py!"count_t")]),
    (.tuple exprs![(.const (.str py!"Ip6OutForwDatagrams")), (.glob py!"count_t")]),
    (.tuple exprs![(.const (.str py!"Ip6OutRequests")), (.glob py!"count_t")]),
    (.tuple exprs![(.const (.str py!"Ip6OutDiscards")), (.glob py!"count_t")]),
    (.tuple exprs![(.const (.str py!"Ip6OutNoRoutes")), (.glob py!"count_t")]),
    (.tuple exprs![(.const (.str py!"Ip6ReasmTimeout")), (.glob py!"count_t")]),
    (.tuple exprs![(.const (.str py!"Ip6ReasmReqds")), (.glob py!"count_t")]),
    (.tuple exprs![(.const (.str py!"Ip6ReasmOKs")), (.glob py!"count_t")]),
    (.tuple exprs![(.const (.str py!"Ip6ReasmFails")), (.glob py!"count_t")]),
    (.tuple exprs![(.const (.str py!"Ip6FragOKs")), (.glob py!"count_t")]),
    (.tuple exprs![(.const (.str py!"Ip6FragFails")), (.glob py!"count_t")]),
    (.tuple exprs![(.const (.str py!"Ip6FragCreates")), (.glob py!"count_t")]),
    (.tuple exprs![(.const (.str py!"Ip6InMcastPkts")), (.glob py!"count_t")]),
    (.tuple exprs![(.const (.str py!"Ip6OutMcastPkts")), (.glob py!"count_t")])])]

/-- atoparser/structs/atop_1_26.py:304-341 -/
def ICMPv6Stats : TopDecl := .class py!"ICMPv6Stats" [(.attr (.glob py!"ctypes") py!"Structure")] [
  .assign py!"_fields_" (.list exprs![
    (.tuple exprs![(.const (.str py!"Icmp6InMsgs")), (.glob py!"count_t")]),
    (.tuple exprs![(.const (.str py!"Icmp6InErrors")), (.glob py!"count_t")]),
    (.tuple exprs![(.const (.str py!"Icmp6InDestUnreachs")), (.glob py!"count_t")]),
    (.tuple exprs![(.const (.str py!"Icmp6InPktTooBigs")), (.glob py!"count_t")]),
    (.tuple exprs![(.const (.str py!"Icmp6InTimeExcds")), (.glob py!"count_t")]),
    (.tuple exprs![(.const (.str py!"Icmp6InParmProblems")), (.glob py!"count_t")]),
    (.tuple exprs![(.const (.str py!"Icmp6InEchos")), (.glob py!"count_t")]),
    (.tuple exprs![(.const (.str py!"Icmp6InEchoReplies")), (.glob py!"count_t")]),
    (.tuple exprs![(.const (.str py!"Icmp6InGroupMembQueries")), (.glob py!"count_t")]),
    (.tuple exprs![(.const (.str py!"Icmp6InGroupMembResponses")), (.glob py!"count_t")]),
    (.tuple exprs![(.const (.str py!"Icmp6InGroupMembReductions")), (.glob py!"count_t")]),
    (.tuple exprs![(.const (.str py!"Icmp6InRouterSolicits")), (.glob py!"count_t")]),
    (.tuple exprs![(.const (.str py!"Icmp6InRouterAdvertisements")), (.glob py!"count_t")]),
    (.tuple exprs![(.const (.str py!"Icmp6InNeighborSolicits")), (.glob py!"count_t")]),
    (.tuple exprs![(.const (.str py!"Icmp6InNeighborAdvertisements")), (.glob py!"count_t")]),
    (.tuple exprs![(.const (.str py!"Icmp6InRedirects")), (.glob py!"count_t")]),
    (.tuple exprs![(.const (.str py!"Icmp6OutMsgs")), (.glob py!"count_t")]),
    (.tuple exprs![(.const (.str py!"Icmp6OutDestUnreachs")), (.glob py!"count_t")]),
    (.tuple exprs![(.const (.str py!"Icmp6OutPktTooBigs")), (.glob py!"count_t")]),
    (.tuple exprs![(.const (.str py!"Icmp6OutTimeExcds")), (.glob py!"count_t")]),
    (.tuple exprs![(.const (.str py!"Icmp6OutParmProblems")), (.glob py!"count_t")]),
    (.tuple exprs![(.const (.str py!"Icmp6OutEchoReplies")), (.glob py!"count_t")]),
    (.tuple exprs![(.const (.str py!"Icmp6OutRouterSolicits")), (.glob py!"count_t")]),
    (.tuple exprs![(.const (.str py!"Icmp6OutNeighborSolicits")), (.glob py!"count_t")]),
    (.tuple exprs![(.const (.str py!"Icmp6OutNeighborAdvertisements")), (.glob py!"count_t")]),
    (.tuple exprs![(.const (.str py!"Icmp6OutRedirects")), (.glob py!"count_t")]),
    (.tuple exprs![(.const (.str py!"Icmp6OutGroupMembResponses")), (.glob py!"count_t")]),
    (.tuple exprs![(.const (.str py!"Icmp6OutGroupMembReductions")), (.glob py!"count_t")])])]

/-- atoparser/structs/atop_1_26.py:344-357 -/
def UDPv6Stats : TopDecl := .class py!"UDPv6Stats" [(.attr (.glob py!"ctypes") py!"Structure")] [
  .assign py!"_fields_" (.list exprs![
    (.tuple exprs![(.const (.str py!"Udp6InDatagrams")), (.glob py!"count_t")]),
    (.tuple exprs![(.const (.str py!"Udp6NoPorts")), (.glob py!"count_t")]),
    (.tuple exprs![(.const (.str py!"Udp6InErrors")), (.glob py!"count_t")]),
    (.tuple exprs![(.const (.str py!"Udp6OutDatagrams")), (.glob py!"count_t")])])]

/-- atoparser/structs/atop_1_26.py:360-376 -/
def NETStat : TopDecl := .class py!"NETStat" [(.attr (.glob py!"ctypes") py!"Structure")] [
  .assign py!"_fields_" (.list exprs![
    (.tuple exprs![(.const (.str py!"ipv4")), (.glob py!"IPv4Stats")]),
    (.tuple exprs![(.const (.str py!"icmpv4")), (.glob py!"ICMPv4Stats")]),
    (.tuple exprs![(.const (.str py!"udpv4")), (.glob py!"UDPv4Stats")]),
    (.tuple exprs![(.const (.str py!"ipv6")), (.glob py!"IPv6Stats")]),
    (.tuple exprs![(.const (.str py!"icmpv6")), (.glob py!"ICMPv6Stats")]),
    (.tuple exprs![(.const (.str py!"udpv6")), (.glob py!"UDPv6Stats")]),
    (.tuple exprs![(.const (.str py!"tcp")), (.glob py!"TCPStats")])])]

/-- atoparser/structs/atop_1_26.py:379-396 -/
def PerDSK : TopDecl := .class py!"PerDSK" [(.attr (.glob py!"ctypes") py!"Structure")] [
  .assign py!"_fields_" (.list exprs![
    (.tuple exprs![(.const (.str py!"name")), (.bin .mul (.attr (.glob py!"ctypes") py!"c_char") (.glob py!"MAXDKNAM"))]),
    (.tuple exprs![(.const (.str py!"nread")), (.glob py!"count_t")]),
    (.tuple exprs![(.const (.str py!"nrsect")), (.glob py!"count_t")]),
    (.tuple exprs![(.const (.str py!"nwrite")), (.glob py!"count_t")]),
    (.tuple exprs![(.const (.str py!"nwsect")), (.glob py!"count_t")]),
    (.tuple exprs![(.const (.str py!"io_ms")), (.glob py!"count_t")]),
    (.tuple exprs![(.const (.str py!"avque")), (.glob py!"count_t")]),
    (.tuple exprs![(.const (.str py!"cfuture")), (.bin .mul (.glob py!"count_t") (.const (.int 4)))])])]

/-- atoparser/structs/atop_1_26.py:399-419 -/
def DSKStat : TopDecl := .class py!"DSKStat" [(.attr (.glob py!"ctypes") py!"Structure")] [
  .assign py!"_fields_" (.list exprs![
    (.tuple exprs![(.const (.str py!"ndsk")), (.attr (.glob py!"ctypes") py!"c_int")]),
    (.tuple exprs![(.const (.str py!"nmdd")), (.attr (.glob py!"ctypes") py!"c_int")]),
    (.tuple exprs![(.const (.str py!"nlvm")), (.attr (.glob py!"ctypes") py!"c_int")]),
    (.tuple exprs![(.const (.str py!"dsk")), (.bin .mul (.glob py!"PerDSK") (.glob py!"MAXDSK"))]),
    (.tuple exprs![(.const (.str py!"mdd")), (.bin .mul (.glob py!"PerDSK") (.glob py!"MAXMDD"))]),
    (.tuple exprs![(.const (.str py!"lvm")), (.bin .mul (.glob py!"PerDSK") (.glob py!"MAXLVM"))])]),
  .assign py!"fields_limiters" (.dict (.cons (.const (.str py!"dsk")) (.const (.str py!"ndsk")) <| .cons (.const (.str py!"mdd")) (.const (.str py!"nmdd")) <| .cons (.const (.str py!"lvm")) (.const (.str py!"nlvm")) <| .nil))]

/-- atoparser/structs/atop_1_26.py:422-453 -/
def PerIntf : TopDecl := .class py!"PerIntf" [(.attr (.glob py!"ctypes") py!"Structure")] [
  .assign py!"_fields_" (.list exprs![
    (.tuple exprs![(.const (.str py!"name")), (.bin .mul (.attr (.glob py!"ctypes") py!"c_char") (.const (.int 16)))]),
    (.tuple exprs![(.const (.str py!"rbyte")), (.glob py!"count_t")]),
    (.tuple exprs![(.const (.str py!"rpack")), (.glob py!"count_t")]),
    (.tuple exprs![(.const (.str py!"rerrs")), (.glob py!"count_t")]),
    (.tuple exprs![(.const (.str py!"rdrop")), (.glob py!"count_t")]),
    (.tuple exprs![(.const (.str py!"rfifo")), (.glob py!"count_t")]),
    (.tuple exprs![(.const (.str py!"rframe")), (.glob py!"count_t")]),
    (.tuple exprs![(.const (.str py!"rcompr")), (.glob py!"count_t")]),
    (.tuple exprs![(.const (.str py!"rmultic")), (.glob py!"count_t")]),
    (.tuple exprs![(.const (.str py!"rfuture")), (.bin .mul (.glob py!"count_t") (.const (.int 4)))]),
    (.tuple exprs![(.const (.str py!"sbyte")), (.glob py!"count_t")]),
    (.tuple exprs![(.const (.str py!"spack")), (.glob py!"count_t")]),
    (.tuple exprs![(.const (.str py!"serrs")), (.glob py!"count_t")]),
    (.tuple exprs![(.const (.str py!"sdrop")), (.glob py!"count_t")]),
    (.tuple exprs![(.const (.str py!"sfifo")), (.glob py!"count_t")]),
    (.tuple exprs![(.const (.str py!"scollis")), (.glob py!"count_t")]),
    (.tuple exprs![(.const (.str py!"scarrier")), (.glob py!"count_t")]),
    (.tuple exprs![(.const (.str py!"scompr")), (.glob py!"count_t")]),
    (.tuple exprs![(.const (.str py!"sfuture")), (.bin .mul (.glob py!"count_t") (.const (.int 4)))]),
    (.tuple exprs![(.const (.str py!"speed")), (.attr (.glob py!"ctypes") py!"c_long")]),
    (.tuple exprs![(.const (.str py!"duplex")), (.attr (.glob py!"ctypes") py!"c_char")]),
    (.tuple exprs![(.const (.str py!"cfuture")), (.bin .mul (.glob py!"count_t") (.const (.int 4)))])])]

/-- atoparser/structs/atop_1_26.py:456-470 -/
def IntfStat : TopDecl := .class py!"IntfStat" [(.attr (.glob py!"ctypes") py!"Structure")] [
  .assign py!"_fields_" (.list exprs![
    (.tuple exprs![(.const (.str py!"nrintf")), (.attr (.glob py!"ctypes") py!"c_int")]),
    (.tuple exprs![(.const (.str py!"intf")), (.bin .mul (.glob py!"PerIntf") (.glob py!"MAXINTF"))])]),
  .assign py!"fields_limiters" (.dict (.cons (.const (.str py!"intf")) (.const (.str py!"nrintf")) <| .nil))]

/-- atoparser/structs/atop_1_26.py:473-487 -/
def WWWStat : TopDecl := .class py!"WWWStat" [(.attr (.glob py!"ctypes") py!"Structure")] [
  .assign py!"_fields_" (.list exprs![
    (.tuple exprs![(.const (.str py!"accesses")), (.glob py!"count_t")]),
    (.tuple exprs![(.const (.str py!"totkbytes")), (.glob py!"count_t")]),
    (.tuple exprs![(.const (.str py!"uptime")), (.glob py!"count_t")]),
    (.tuple exprs![(.const (.str py!"bworkers")), (.attr (.glob py!"ctypes") py!"c_int")]),
    (.tuple exprs![(.const (.str py!"iworkers")), (.attr (.glob py!"ctypes") py!"c_int")])])]

/-- atoparser/structs/atop_1_26.py:490-504 -/
def SStat : TopDecl := .class py!"SStat" [(.attr (.glob py!"ctypes") py!"Structure")] [
  .assign py!"_fields_" (.list exprs![
    (.tuple exprs![(.const (.str py!"cpu")), (.glob py!"CPUStat")]),
    (.tuple exprs![(.const (.str py!"mem")), (.glob py!"MemStat")]),
    (.tuple exprs![(.const (.str py!"net")), (.glob py!"NETStat")]),
    (.tuple exprs![(.const (.str py!"intf")), (.glob py!"IntfStat")]),
    (.tuple exprs![(.const (.str py!"dsk")), (.glob py!"DSKStat")]),
    (.tuple exprs![(.const (.str py!"www")), (.glob py!"WWWStat")])])]

/-- atoparser/structs/atop_1_26.py:507-537 -/
def GEN : TopDecl := .class py!"GEN" [(.attr (.glob py!"ctypes") py!"Structure")] [
  .assign py!"_fields_" (.list exprs![
    (.tuple exprs![(.const (.str py!"pid")), (.attr (.glob py!"ctypes") py!"c_int")]),
    (.tuple exprs![(.const (.str py!"ppid")), (.attr (.glob py!"ctypes") py!"c_int")]),
    (.tuple exprs![(.const (.str py!"ruid")), (.attr (.glob py!"ctypes") py!"c_int")]),
    (.tuple exprs![(.const (.str py!"euid")), (.attr (.glob py!"ctypes") py!"c_int")]),
    (.tuple exprs![(.const (.str py!"suid")), (.attr (.glob py!"ctypes") py!"c_int")]),
    (.tuple exprs![(.const (.str py!"fsuid")), (.attr (.glob py!"ctypes") py!"c_int")]),
    (.tuple exprs![(.const (.str py!"rgid")), (.attr (.glob py!"ctypes") py!"c_int")]),
    (.tuple exprs![(.const (.str py!"egid")), (.attr (.glob py!"ctypes") py!"c_int")]),
    (.tuple exprs![(.const (.str py!"sgid")), (.attr (.glob py!"ctypes") py!"c_int")]),
    (.tuple exprs![(.const (.str py!"fsgid")), (.attr (.glob py!"ctypes") py!"c_int")]),
    (.tuple exprs![(.const (.str py!"nthr")), (.attr (.glob py!"ctypes") py!"c_int")]),
    (.tuple exprs![(.const (.str py!"name")), (.bin .mul (.attr (.glob py!"ctypes") py!"c_char") (.bin .add (.glob py!"PNAMLEN") (.const (.int 1))))]),
    (.tuple exprs![(.const (.str py!"state")), (.attr (.glob py!"ctypes") py!"c_char")]),
    (.tuple exprs![(.const (.str py!"excode")), (.attr (.glob py!"ctypes") py!"c_int")]),
    (.tuple exprs![(.const (.str py!"btime")), (.glob py!"time_t")]),
    (.tuple exprs![(.const (.str py!"elaps")), (.glob py!"time_t")]),
    (.tuple exprs![(.const (.str py!"cmdline")), (.bin .mul (.attr (.glob py!"ctypes") py!"c_char") (.bin .add (.glob py!"CMDLEN") (.const (.int 1))))]),
    (.tuple exprs![(.const (.str py!"nthrslpi")), (.attr (.glob py!"ctypes") py!"c_int")]),
    (.tuple exprs![(.const (.str py!"nthrslpu")), (.attr (.glob py!"ctypes") py!"c_int")]),
    (.tuple exprs![(.const (.str py!"nthrrun")), (.attr (.glob py!"ctypes") py!"c_int")]),
    (.tuple exprs![(.const (.str py!"ifuture")), (.bin .mul (.attr (.glob py!"ctypes") py!"c_int") (.const (.int 1)))])])]

/-- atoparser/structs/atop_1_26.py:540-559 -/
def CPU : TopDecl := .class py!"CPU" [(.attr (.glob py!"ctypes") py!"Structure")] [
  .assign py!"_fields_" (.list exprs![
    (.tuple exprs![(.const (.str py!"utime")), (.glob py!"count_t")]),
    (.tuple exprs![(.const (.str py!"stime")), (.glob py!"count_t")]),
    (.tuple exprs![(.const (.str py!"nice")), (.attr (.glob py!"ctypes") py!"c_int")]),
    (.tuple exprs![(.const (.str py!"prio")), (.attr (.glob py!"ctypes") py!"c_int")]),
    (.tuple exprs![(.const (.str py!"rtprio")), (.attr (.glob py!"ctypes") py!"c_int")]),
    (.tuple exprs![(.const (.str py!"policy")), (.attr (.glob py!"ctypes") py!"c_int")]),
    (.tuple exprs![(.const (.str py!"curcpu")), (.attr (.glob py!"ctypes") py!"c_int")]),
    (.tuple exprs![(.const (.str py!"sleepavg")), (.attr (.glob py!"ctypes") py!"c_int")]),
    (.tuple exprs![(.const (.str py!"ifuture")), (.bin .mul (.attr (.glob py!"ctypes") py!"c_int") (.const (.int 4)))]),
    (.tuple exprs![(.const (.str py!"cfuture")), (.bin .mul (.glob py!"count_t") (.const (.int 4)))])])]

/-- atoparser/structs/atop_1_26.py:562-577 -/
def DSK : TopDecl := .class py!"DSK" [(.attr (.glob py!"ctypes") py!"Structure")] [
  .assign py!"_fields_" (.list exprs![
    (.tuple exprs![(.const (.str py!"rio")), (.glob py!"count_t")]),
    (.tuple exprs![(.const (.str py!"rsz")), (.glob py!"count_t")]),
    (.tuple exprs![(.const (.str py!"wio")), (.glob py!"count_t")]),
    (.tuple exprs![(.const (.str py!"wsz")), (.glob py!"count_t")]),
    (.tuple exprs![(.const (.str py!"cwsz")), (.glob py!"count_t")]),
    (.tuple exprs![(.const (.str py!"cfuture")), (.bin .mul (.glob py!"count_t") (.const (.int 4)))])])]

/-- atoparser/structs/atop_1_26.py:580-597 -/
def MEM : TopDecl := .class py!"MEM" [(.attr (.glob py!"ctypes") py!"Structure")] [
  .assign py!"_fields_" (.list exprs![
    (.tuple exprs![(.const (.str py!"minflt")), (.glob py!"count_t")]),
    (.tuple exprs![(.const (.str py!"majflt")), (.glob py!"count_t")]),
    (.tuple exprs![(.const (.str py!"shtext")), (.glob py!"count_t")]),
    (.tuple exprs![(.const (.str py!"vmem")), (.glob py!"count_t")]),
    (.tuple exprs![(.const (.str py!"rmem")), (.glob py!"count_t")]),
    (.tuple exprs![(.const (.str py!"vgrow")), (.glob py!"count_t")]),
    (.tuple exprs![(.const (.str py!"rgrow")), (.glob py!"count_t")]),
    (.tuple exprs![(.const (.str py!"cfuture")), (.bin .mul (.glob py!"count_t") (.const (.int 4)))])])]

/-- atoparser/structs/atop_1_26.py:600-620 -/
def NET : TopDecl := .class py!"NET" [(.attr (.glob py!"ctypes") py!"Structure")] [
  .assign py!"_fields_" (.list exprs![
    (.tuple exprs![(.const (.str py!"tcpsnd")), (.glob py!"count_t")]),
    (.tuple exprs![(.const (.str py!"tcpssz")), (.glob py!"count_t")]),
    (.tuple exprs![(.const (.str py!"tcprcv")), (.glob py!"count_t")]),
    (.tuple exprs![(.const (.str py!"tcprsz")), (.glob py!"count_t")]),
    (.tuple exprs![(.const (.str py!"udpsnd")), (.glob py!"count_t")]),
    (.tuple exprs![(.const (.str py!"udpssz")), (.glob py!"count_t")]),
    (.tuple exprs![(.const (.str py!"udprcv")), (.glob py!"count_t")]),
    (.tuple exprs![(.const (.str py!"udprsz")), (.glob py!"count_t")]),
    (.tuple exprs![(.const (.str py!"rawsnd")), (.glob py!"count_t")]),
    (.tuple exprs![(.const (.str py!"rawrcv")), (.glob py!"count_t")]),
    (.tuple exprs![(.const (.str py!"cfuture")), (.bin .mul (.glob py!"count_t") (.const (.int 4)))])])]

/-- atoparser/structs/atop_1_26.py:623-636 -/
def PStat : TopDecl := .class py!"PStat" [(.attr (.glob py!"ctypes") py!"Structure")] [
  .assign py!"_fields_" (.list exprs![
    (.tuple exprs![(.const (.str py!"gen")), (.glob py!"GEN")]),
    (.tuple exprs![(.const (.str py!"cpu")), (.glob py!"CPU")]),
    (.tuple exprs![(.const (.str py!"dsk")), (.glob py!"DSK")]),
    (.tuple exprs![(.const (.str py!"mem")), (.glob py!"MEM")]),
    (.tuple exprs![(.const (.str py!"net")), (.glob py!"NET")])])]

/-- atoparser/structs/atop_1_26.py:643-677 -/
def Header : TopDecl := .class py!"Header" [(.attr (.glob py!"ctypes") py!"Structure"), (.glob py!"HeaderMixin")] [
  .assign py!"_fields_" (.list exprs![
    (.tuple exprs![(.const (.str py!"magic")), (.attr (.glob py!"ctypes") py!"c_uint")]),
    (.tuple exprs![(.const (.str py!"aversion")), (.attr (.glob py!"ctypes") py!"c_ushort")]),
    (.tuple exprs![(.const (.str py!"future1")), (.attr (.glob py!"ctypes") py!"c_ushort")]),
    (.tuple exprs![(.const (.str py!"future2")), (.attr (.glob py!"ctypes") py!"c_ushort")]),
    (.tuple exprs![(.const (.str py!"rawheadlen")), (.attr (.glob py!"ctypes") py!"c_ushort")]),
    (.tuple exprs![(.const (.str py!"rawreclen")), (.attr (.glob py!"ctypes") py!"c_ushort")]),
    (.tuple exprs![(.const (.str py!"hertz")), (.attr (.glob py!"ctypes") py!"c_ushort")]),
    (.tuple exprs![(.const (.str py!"sfuture")), (.bin .mul (.attr (.glob py!"ctypes") py!"c_ushort") (.const (.int 6)))]),
    (.tuple exprs![(.const (.str py!"sstatlen")), (.attr (.glob py!"ctypes") py!"c_uint")]),
    (.tuple exprs![(.const (.str py!"pstatlen")), (.attr (.glob py!"ctypes") py!"c_uint")]),
    (.tuple exprs![(.const (.str py!"utsname")), (.glob py!"UTSName")]),
    (.tuple exprs![(.const (.str py!"cfuture")), (.bin .mul (.attr (.glob py!"ctypes") py!"c_char") (.const (.int 8)))]),
    (.tuple exprs![(.const (.str py!"pagesize")), (.attr (.glob py!"ctypes") py!"c_uint")]),
    (.tuple exprs![(.const (.str py!"supportflags")), (.attr (.glob py!"ctypes") py!"c_int")]),
    (.tuple exprs![(.const (.str py!"osrel")), (.attr (.glob py!"ctypes") py!"c_int")]),
    (.tuple exprs![(.const (.str py!"osvers")), (.attr (.glob py!"ctypes") py!"c_int")]),
    (.tuple exprs![(.const (.str py!"ossub")), (.attr (.glob py!"ctypes") py!"c_int")]),
    (.tuple exprs![(.const (.str py!"ifuture")), (.bin .mul (.attr (.glob py!"ctypes") py!"c_int") (.const (.int 6)))])]),
  .assign py!"supported_version" (.const (.str py!"1.26")),
  .assign py!"Record" (.glob py!"Record"),
  .assign py!"SStat" (.glob py!"SStat"),
  .assign py!"PStat" (.glob py!"PStat"),
  .assign py!"TStat" (.glob py!"PStat"),
  .assign py!"CStat" (.const .none),
  .assign py!"CGChainer" (.const .none)]

/-- atoparser/structs/atop_1_26.py: the statements of the module, in order. -/
def decls : List TopDecl := [
  .plain (.import py!"ctypes"),
  .plain (.fromImport py!"atoparser.structs.shared" py!"HeaderMixin"),
  .plain (.fromImport py!"atoparser.structs.shared" py!"UTSName"),
  .plain (.fromImport py!"atoparser.structs.shared" py!"count_t"),
  .plain (.fromImport py!"atoparser.structs.shared" py!"time_t"),
  .plain (.assign py!"ACCTACTIVE" (.const (.int 1))),
  .plain (.assign py!"PATCHSTAT" (.const (.int 2))),
  .plain (.assign py!"IOSTAT" (.const (.int 4))),
  .plain (.assign py!"PATCHACCT" (.const (.int 8))),
  .plain (.assign py!"PNAMLEN" (.const (.int 15))),
  .plain (.assign py!"CMDLEN" (.const (.int 150))),
  .plain (.assign py!"MAXCPU" (.const (.int 64))),
  .plain (.assign py!"MAXDSK" (.const (.int 256))),
  .plain (.assign py!"MAXLVM" (.const (.int 256))),
  .plain (.assign py!"MAXMDD" (.const (.int 128))),
  .plain (.assign py!"MAXDKNAM" (.const (.int 32))),
  .plain (.assign py!"MAXINTF" (.const (.int 32))),
  Record,
  MemStat,
  FreqCnt,
  PerCPU,
  CPUStat,
  IPv4Stats,
  ICMPv4Stats,
  UDPv4Stats,
  TCPStats,
  IPv6Stats,
  ICMPv6Stats,
  UDPv6Stats,
  NETStat,
  PerDSK,
  DSKStat,
  PerIntf,
  IntfStat,
  WWWStat,
  SStat,
  GEN,
  CPU,
  DSK,
  MEM,
  NET,
  PStat,
  .plain (.assign py!"TStat" (.glob py!"PStat")),
  Header]

end Atop.Src.Text.V1_26
