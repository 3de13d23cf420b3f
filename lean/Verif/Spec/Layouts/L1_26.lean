-- GENERATED by tools/gen_layouts.py from the text of /repo/atoparser/structs/atop_1_26.py. Do not edit.
import Verif.Spec.Node
/-!
# Byte layout of the blocks of an atop 1.26 log
-/

namespace Atop.Spec

/-- header of version 1.26: 480 bytes -/
def L1_26.header : Node := .record <| .ofList [
  (py!"magic", .uint 0 4),
  (py!"aversion", .uint 4 2),
  (py!"rawheadlen", .uint 10 2),
  (py!"rawreclen", .uint 12 2),
  (py!"hertz", .uint 14 2),
  (py!"sstatlen", .uint 28 4),
  (py!"pstatlen", .uint 32 4),
  (py!"utsname", .record <| .ofList [
    (py!"sysname", .text 36 65),
    (py!"nodename", .text 101 65),
    (py!"release", .text 166 65),
    (py!"version", .text 231 65),
    (py!"machine", .text 296 65),
    (py!"domain", .text 361 65)]),
  (py!"pagesize", .uint 436 4),
  (py!"supportflags", .sint 440 4),
  (py!"osrel", .sint 444 4),
  (py!"osvers", .sint 448 4),
  (py!"ossub", .sint 452 4)]

/-- record of version 1.26: 80 bytes -/
def L1_26.record : Node := .record <| .ofList [
  (py!"curtime", .sint 0 8),
  (py!"flags", .uint 8 2),
  (py!"scomplen", .uint 16 4),
  (py!"pcomplen", .uint 20 4),
  (py!"interval", .uint 24 4),
  (py!"nlist", .uint 28 4),
  (py!"npresent", .uint 32 4),
  (py!"nexit", .uint 36 4),
  (py!"ntrun", .uint 40 4),
  (py!"ntslpi", .uint 44 4),
  (py!"ntslpu", .uint 48 4),
  (py!"nzombie", .uint 52 4)]

/-- sstat of version 1.26: 88368 bytes -/
def L1_26.sstat : Node := .record <| .ofList [
  (py!"cpu", .record <| .ofList [
    (py!"nrcpu", .sint 0 8),
    (py!"devint", .sint 8 8),
    (py!"csw", .sint 16 8),
    (py!"nprocs", .sint 24 8),
    (py!"lavg1", .float 32),
    (py!"lavg5", .float 36),
    (py!"lavg15", .float 40),
    (py!"all", .record <| .ofList [
      (py!"cpunr", .sint 80 4),
      (py!"stime", .sint 88 8),
      (py!"utime", .sint 96 8),
      (py!"ntime", .sint 104 8),
      (py!"itime", .sint 112 8),
      (py!"wtime", .sint 120 8),
      (py!"Itime", .sint 128 8),
      (py!"Stime", .sint 136 8),
      (py!"steal", .sint 144 8),
      (py!"guest", .sint 152 8),
      (py!"freqcnt", .record <| .ofList [
        (py!"maxfreq", .sint 160 8),
        (py!"cnt", .sint 168 8),
        (py!"ticks", .sint 176 8)])]),
    (py!"cpu", .list 64 112 (some (0, 8, true)) <| .record <| .ofList [
      (py!"cpunr", .sint 192 4),
      (py!"stime", .sint 200 8),
      (py!"utime", .sint 208 8),
      (py!"ntime", .sint 216 8),
      (py!"itime", .sint 224 8),
      (py!"wtime", .sint 232 8),
      (py!"Itime", .sint 240 8),
      (py!"Stime", .sint 248 8),
      (py!"steal", .sint 256 8),
      (py!"guest", .sint 264 8),
      (py!"freqcnt", .record <| .ofList [
        (py!"maxfreq", .sint 272 8),
        (py!"cnt", .sint 280 8),
        (py!"ticks", .sint 288 8)])])]),
  (py!"mem", .record <| .ofList [
    (py!"physmem", .sint 7360 8),
    (py!"freemem", .sint 7368 8),
    (py!"buffermem", .sint 7376 8),
    (py!"slabmem", .sint 7384 8),
    (py!"cachemem", .sint 7392 8),
    (py!"cachedrt", .sint 7400 8),
    (py!"totswap", .sint 7408 8),
    (py!"freeswap", .sint 7416 8),
    (py!"pgscans", .sint 7424 8),
    (py!"allocstall", .sint 7432 8),
    (py!"swouts", .sint 7440 8),
    (py!"swins", .sint 7448 8),
    (py!"commitlim", .sint 7456 8),
    (py!"committed", .sint 7464 8)]),
  (py!"net", .record <| .ofList [
    (py!"ipv4", .record <| .ofList [
      (py!"Forwarding", .sint 7504 8),
      (py!"DefaultTTL", .sint 7512 8),
      (py!"InReceives", .sint 7520 8),
      (py!"InHdrErrors", .sint 7528 8),
      (py!"InAddrErrors", .sint 7536 8),
      (py!"ForwDatagrams", .sint 7544 8),
      (py!"InUnknownProtos", .sint 7552 8),
      (py!"InDiscards", .sint 7560 8),
      (py!"InDelivers", .sint 7568 8),
      (py!"OutRequests", .sint 7576 8),
      (py!"OutDiscards", .sint 7584 8),
      (py!"OutNoRoutes", .sint 7592 8),
      (py!"ReasmTimeout", .sint 7600 8),
      (py!"ReasmReqds", .sint 7608 8),
      (py!"ReasmOKs", .sint 7616 8),
      (py!"ReasmFails", .sint 7624 8),
      (py!"FragOKs", .sint 7632 8),
      (py!"FragFails", .sint 7640 8),
      (py!"FragCreates", .sint 7648 8)]),
    (py!"icmpv4", .record <| .ofList [
      (py!"InMsgs", .sint 7656 8),
      (py!"InErrors", .sint 7664 8),
      (py!"InDestUnreachs", .sint 7672 8),
      (py!"InTimeExcds", .sint 7680 8),
      (py!"InParmProbs", .sint 7688 8),
      (py!"InSrcQuenchs", .sint 7696 8),
      (py!"InRedirects", .sint 7704 8),
      (py!"InEchos", .sint 7712 8),
      (py!"InEchoReps", .sint 7720 8),
      (py!"InTimestamps", .sint 7728 8),
      (py!"InTimestampReps", .sint 7736 8),
      (py!"InAddrMasks", .sint 7744 8),
      (py!"InAddrMaskReps", .sint 7752 8),
      (py!"OutMsgs", .sint 7760 8),
      (py!"OutErrors", .sint 7768 8),
      (py!"OutDestUnreachs", .sint 7776 8),
      (py!"OutTimeExcds", .sint 7784 8),
      (py!"OutParmProbs", .sint 7792 8),
      (py!"OutSrcQuenchs", .sint 7800 8),
      (py!"OutRedirects", .sint 7808 8),
      (py!"OutEchos", .sint 7816 8),
      (py!"OutEchoReps", .sint 7824 8),
      (py!"OutTimestamps", .sint 7832 8),
      (py!"OutTimestampReps", .sint 7840 8),
      (py!"OutAddrMasks", .sint 7848 8),
      (py!"OutAddrMaskReps", .sint 7856 8)]),
    (py!"udpv4", .record <| .ofList [
      (py!"InDatagrams", .sint 7864 8),
      (py!"NoPorts", .sint 7872 8),
      (py!"InErrors", .sint 7880 8),
      (py!"OutDatagrams", .sint 7888 8)]),
    (py!"ipv6", .record <| .ofList [
      (py!"Ip6InReceives", .sint 7896 8),
      (py!"Ip6InHdrErrors", .sint 7904 8),
      (py!"Ip6InTooBigErrors", .sint 7912 8),
      (py!"Ip6InNoRoutes", .sint 7920 8),
      (py!"Ip6InAddrErrors", .sint 7928 8),
      (py!"Ip6InUnknownProtos", .sint 7936 8),
      (py!"Ip6InTruncatedPkts", .sint 7944 8),
      (py!"Ip6InDiscards", .sint 7952 8),
      (py!"Ip6InDelivers", .sint 7960 8),
      (py!"Ip6OutForwDatagrams", .sint 7968 8),
      (py!"Ip6OutRequests", .sint 7976 8),
      (py!"Ip6OutDiscards", .sint 7984 8),
      (py!"Ip6OutNoRoutes", .sint 7992 8),
      (py!"Ip6ReasmTimeout", .sint 8000 8),
      (py!"Ip6ReasmReqds", .sint 8008 8),
      (py!"Ip6ReasmOKs", .sint 8016 8),
      (py!"Ip6ReasmFails", .sint 8024 8),
      (py!"Ip6FragOKs", .sint 8032 8),
      (py!"Ip6FragFails", .sint 8040 8),
      (py!"Ip6FragCreates", .sint 8048 8),
      (py!"Ip6InMcastPkts", .sint 8056 8),
      (py!"Ip6OutMcastPkts", .sint 8064 8)]),
    (py!"icmpv6", .record <| .ofList [
      (py!"Icmp6InMsgs", .sint 8072 8),
      (py!"Icmp6InErrors", .sint 8080 8),
      (py!"Icmp6InDestUnreachs", .sint 8088 8),
      (py!"Icmp6InPktTooBigs", .sint 8096 8),
      (py!"Icmp6InTimeExcds", .sint 8104 8),
      (py!"Icmp6InParmProblems", .sint 8112 8),
      (py!"Icmp6InEchos", .sint 8120 8),
      (py!"Icmp6InEchoReplies", .sint 8128 8),
      (py!"Icmp6InGroupMembQueries", .sint 8136 8),
      (py!"Icmp6InGroupMembResponses", .sint 8144 8),
      (py!"Icmp6InGroupMembReductions", .sint 8152 8),
      (py!"Icmp6InRouterSolicits", .sint 8160 8),
      (py!"Icmp6InRouterAdvertisements", .sint 8168 8),
      (py!"Icmp6InNeighborSolicits", .sint 8176 8),
      (py!"Icmp6InNeighborAdvertisements", .sint 8184 8),
      (py!"Icmp6InRedirects", .sint 8192 8),
      (py!"Icmp6OutMsgs", .sint 8200 8),
      (py!"Icmp6OutDestUnreachs", .sint 8208 8),
      (py!"Icmp6OutPktTooBigs", .sint 8216 8),
      (py!"Icmp6OutTimeExcds", .sint 8224 8),
      (py!"Icmp6OutParmProblems", .sint 8232 8),
      (py!"Icmp6OutEchoReplies", .sint 8240 8),
      (py!"Icmp6OutRouterSolicits", .sint 8248 8),
      (py!"Icmp6OutNeighborSolicits", .sint 8256 8),
      (py!"Icmp6OutNeighborAdvertisements", .sint 8264 8),
      (py!"Icmp6OutRedirects", .sint 8272 8),
      (py!"Icmp6OutGroupMembResponses", .sint 8280 8),
      (py!"Icmp6OutGroupMembReductions", .sint 8288 8)]),
    (py!"udpv6", .record <| .ofList [
      (py!"Udp6InDatagrams", .sint 8296 8),
      (py!"Udp6NoPorts", .sint 8304 8),
      (py!"Udp6InErrors", .sint 8312 8),
      (py!"Udp6OutDatagrams", .sint 8320 8)]),
    (py!"tcp", .record <| .ofList [
      (py!"RtoAlgorithm", .sint 8328 8),
      (py!"RtoMin", .sint 8336 8),
      (py!"RtoMax", .sint 8344 8),
      (py!"MaxConn", .sint 8352 8),
      (py!"ActiveOpens", .sint 8360 8),
      (py!"PassiveOpens", .sint 8368 8),
      (py!"AttemptFails", .sint 8376 8),
      (py!"EstabResets", .sint 8384 8),
      (py!"CurrEstab", .sint 8392 8),
      (py!"InSegs", .sint 8400 8),
      (py!"OutSegs", .sint 8408 8),
      (py!"RetransSegs", .sint 8416 8),
      (py!"InErrs", .sint 8424 8),
      (py!"OutRsts", .sint 8432 8)])]),
  (py!"intf", .record <| .ofList [
    (py!"nrintf", .sint 8440 4),
    (py!"intf", .list 32 256 (some (8440, 4, true)) <| .record <| .ofList [
      (py!"name", .text 8448 16),
      (py!"rbyte", .sint 8464 8),
      (py!"rpack", .sint 8472 8),
      (py!"rerrs", .sint 8480 8),
      (py!"rdrop", .sint 8488 8),
      (py!"rfifo", .sint 8496 8),
      (py!"rframe", .sint 8504 8),
      (py!"rcompr", .sint 8512 8),
      (py!"rmultic", .sint 8520 8),
      (py!"sbyte", .sint 8560 8),
      (py!"spack", .sint 8568 8),
      (py!"serrs", .sint 8576 8),
      (py!"sdrop", .sint 8584 8),
      (py!"sfifo", .sint 8592 8),
      (py!"scollis", .sint 8600 8),
      (py!"scarrier", .sint 8608 8),
      (py!"scompr", .sint 8616 8),
      (py!"speed", .sint 8656 8),
      (py!"duplex", .char 8664)])]),
  (py!"dsk", .record <| .ofList [
    (py!"ndsk", .sint 16640 4),
    (py!"nmdd", .sint 16644 4),
    (py!"nlvm", .sint 16648 4),
    (py!"dsk", .list 256 112 (some (16640, 4, true)) <| .record <| .ofList [
      (py!"name", .text 16656 32),
      (py!"nread", .sint 16688 8),
      (py!"nrsect", .sint 16696 8),
      (py!"nwrite", .sint 16704 8),
      (py!"nwsect", .sint 16712 8),
      (py!"io_ms", .sint 16720 8),
      (py!"avque", .sint 16728 8)]),
    (py!"mdd", .list 128 112 (some (16644, 4, true)) <| .record <| .ofList [
      (py!"name", .text 45328 32),
      (py!"nread", .sint 45360 8),
      (py!"nrsect", .sint 45368 8),
      (py!"nwrite", .sint 45376 8),
      (py!"nwsect", .sint 45384 8),
      (py!"io_ms", .sint 45392 8),
      (py!"avque", .sint 45400 8)]),
    (py!"lvm", .list 256 112 (some (16648, 4, true)) <| .record <| .ofList [
      (py!"name", .text 59664 32),
      (py!"nread", .sint 59696 8),
      (py!"nrsect", .sint 59704 8),
      (py!"nwrite", .sint 59712 8),
      (py!"nwsect", .sint 59720 8),
      (py!"io_ms", .sint 59728 8),
      (py!"avque", .sint 59736 8)])]),
  (py!"www", .record <| .ofList [
    (py!"accesses", .sint 88336 8),
    (py!"totkbytes", .sint 88344 8),
    (py!"uptime", .sint 88352 8),
    (py!"bworkers", .sint 88360 4),
    (py!"iworkers", .sint 88364 4)])]

/-- tstat of version 1.26: 616 bytes -/
def L1_26.tstat : Node := .record <| .ofList [
  (py!"gen", .record <| .ofList [
    (py!"pid", .sint 0 4),
    (py!"ppid", .sint 4 4),
    (py!"ruid", .sint 8 4),
    (py!"euid", .sint 12 4),
    (py!"suid", .sint 16 4),
    (py!"fsuid", .sint 20 4),
    (py!"rgid", .sint 24 4),
    (py!"egid", .sint 28 4),
    (py!"sgid", .sint 32 4),
    (py!"fsgid", .sint 36 4),
    (py!"nthr", .sint 40 4),
    (py!"name", .text 44 16),
    (py!"state", .char 60),
    (py!"excode", .sint 64 4),
    (py!"btime", .sint 72 8),
    (py!"elaps", .sint 80 8),
    (py!"cmdline", .text 88 151),
    (py!"nthrslpi", .sint 240 4),
    (py!"nthrslpu", .sint 244 4),
    (py!"nthrrun", .sint 248 4)]),
  (py!"cpu", .record <| .ofList [
    (py!"utime", .sint 256 8),
    (py!"stime", .sint 264 8),
    (py!"nice", .sint 272 4),
    (py!"prio", .sint 276 4),
    (py!"rtprio", .sint 280 4),
    (py!"policy", .sint 284 4),
    (py!"curcpu", .sint 288 4),
    (py!"sleepavg", .sint 292 4)]),
  (py!"dsk", .record <| .ofList [
    (py!"rio", .sint 344 8),
    (py!"rsz", .sint 352 8),
    (py!"wio", .sint 360 8),
    (py!"wsz", .sint 368 8),
    (py!"cwsz", .sint 376 8)]),
  (py!"mem", .record <| .ofList [
    (py!"minflt", .sint 416 8),
    (py!"majflt", .sint 424 8),
    (py!"shtext", .sint 432 8),
    (py!"vmem", .sint 440 8),
    (py!"rmem", .sint 448 8),
    (py!"vgrow", .sint 456 8),
    (py!"rgrow", .sint 464 8)]),
  (py!"net", .record <| .ofList [
    (py!"tcpsnd", .sint 504 8),
    (py!"tcpssz", .sint 512 8),
    (py!"tcprcv", .sint 520 8),
    (py!"tcprsz", .sint 528 8),
    (py!"udpsnd", .sint 536 8),
    (py!"udpssz", .sint 544 8),
    (py!"udprcv", .sint 552 8),
    (py!"udprsz", .sint 560 8),
    (py!"rawsnd", .sint 568 8),
    (py!"rawrcv", .sint 576 8)])]

end Atop.Spec
