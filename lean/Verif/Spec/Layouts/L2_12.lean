-- GENERATED by tools/gen_layouts.py from the text of /repo/atoparser/structs/atop_2_12.py. Do not edit.
import Verif.Spec.Node
/-!
# Byte layout of the blocks of an atop 2.12 log
-/

namespace Atop.Spec

/-- header of version 2.12: 480 bytes -/
def L2_12.header : Node := .record <| .ofList [
  (py!"magic", .uint 0 4),
  (py!"aversion", .uint 4 2),
  (py!"rawheadlen", .uint 10 2),
  (py!"rawreclen", .uint 12 2),
  (py!"hertz", .uint 14 2),
  (py!"pidwidth", .uint 16 2),
  (py!"sstatlen", .uint 28 4),
  (py!"tstatlen", .uint 32 4),
  (py!"utsname", .record <| .ofList [
    (py!"sysname", .text 36 65),
    (py!"nodename", .text 101 65),
    (py!"release", .text 166 65),
    (py!"version", .text 231 65),
    (py!"machine", .text 296 65),
    (py!"domain", .text 361 65)]),
  (py!"pagesize", .uint 436 4),
  (py!"supportflags", .sint 440 4),
  (py!"osrel", .sint 444 4),
  (py!"osvers", .sint 448 4),
  (py!"ossub", .sint 452 4),
  (py!"cstatlen", .sint 456 4)]

/-- record of version 2.12: 96 bytes -/
def L2_12.record : Node := .record <| .ofList [
  (py!"curtime", .sint 0 8),
  (py!"flags", .uint 8 2),
  (py!"ncgroups", .uint 10 2),
  (py!"scomplen", .uint 16 4),
  (py!"pcomplen", .uint 20 4),
  (py!"interval", .uint 24 4),
  (py!"ndeviat", .uint 28 4),
  (py!"nactproc", .uint 32 4),
  (py!"ntask", .uint 36 4),
  (py!"totproc", .uint 40 4),
  (py!"totrun", .uint 44 4),
  (py!"totslpi", .uint 48 4),
  (py!"totslpu", .uint 52 4),
  (py!"totzomb", .uint 56 4),
  (py!"nexit", .uint 60 4),
  (py!"noverflow", .uint 64 4),
  (py!"totidle", .uint 68 4),
  (py!"ccomplen", .uint 72 4),
  (py!"coriglen", .uint 76 4),
  (py!"ncgpids", .uint 80 4),
  (py!"icomplen", .uint 84 4)]

/-- sstat of version 2.12: 1064016 bytes -/
def L2_12.sstat : Node := .record <| .ofList [
  (py!"cpu", .record <| .ofList [
    (py!"nrcpu", .sint 0 8),
    (py!"devint", .sint 8 8),
    (py!"csw", .sint 16 8),
    (py!"nprocs", .sint 24 8),
    (py!"lavg1", .float 32),
    (py!"lavg5", .float 36),
    (py!"lavg15", .float 40),
    (py!"all", .record <| .ofList [
      (py!"cpunr", .sint 80 4),
      (py!"stime", .sint 88 8),
      (py!"utime", .sint 96 8),
      (py!"ntime", .sint 104 8),
      (py!"itime", .sint 112 8),
      (py!"wtime", .sint 120 8),
      (py!"Itime", .sint 128 8),
      (py!"Stime", .sint 136 8),
      (py!"steal", .sint 144 8),
      (py!"guest", .sint 152 8),
      (py!"freqcnt", .record <| .ofList [
        (py!"maxfreq", .sint 160 8),
        (py!"cnt", .sint 168 8),
        (py!"ticks", .sint 176 8)]),
      (py!"instr", .sint 184 8),
      (py!"cycle", .sint 192 8)]),
    (py!"cpu", .list 2048 168 (some (0, 8, true)) <| .record <| .ofList [
      (py!"cpunr", .sint 248 4),
      (py!"stime", .sint 256 8),
      (py!"utime", .sint 264 8),
      (py!"ntime", .sint 272 8),
      (py!"itime", .sint 280 8),
      (py!"wtime", .sint 288 8),
      (py!"Itime", .sint 296 8),
      (py!"Stime", .sint 304 8),
      (py!"steal", .sint 312 8),
      (py!"guest", .sint 320 8),
      (py!"freqcnt", .record <| .ofList [
        (py!"maxfreq", .sint 328 8),
        (py!"cnt", .sint 336 8),
        (py!"ticks", .sint 344 8)]),
      (py!"instr", .sint 352 8),
      (py!"cycle", .sint 360 8)])]),
  (py!"mem", .record <| .ofList [
    (py!"physmem", .sint 344312 8),
    (py!"freemem", .sint 344320 8),
    (py!"buffermem", .sint 344328 8),
    (py!"slabmem", .sint 344336 8),
    (py!"cachemem", .sint 344344 8),
    (py!"cachedrt", .sint 344352 8),
    (py!"totswap", .sint 344360 8),
    (py!"freeswap", .sint 344368 8),
    (py!"pgscans", .sint 344376 8),
    (py!"pgsteal", .sint 344384 8),
    (py!"allocstall", .sint 344392 8),
    (py!"swouts", .sint 344400 8),
    (py!"swins", .sint 344408 8),
    (py!"tcpsock", .sint 344416 8),
    (py!"udpsock", .sint 344424 8),
    (py!"commitlim", .sint 344432 8),
    (py!"committed", .sint 344440 8),
    (py!"shmem", .sint 344448 8),
    (py!"shmrss", .sint 344456 8),
    (py!"shmswp", .sint 344464 8),
    (py!"slabreclaim", .sint 344472 8),
    (py!"stothugepage", .sint 344480 8),
    (py!"sfreehugepage", .sint 344488 8),
    (py!"shugepagesz", .sint 344496 8),
    (py!"vmwballoon", .sint 344504 8),
    (py!"zfsarcsize", .sint 344512 8),
    (py!"swapcached", .sint 344520 8),
    (py!"ksmsharing", .sint 344528 8),
    (py!"ksmshared", .sint 344536 8),
    (py!"zswapped", .sint 344544 8),
    (py!"zswap", .sint 344552 8),
    (py!"oomkills", .sint 344560 8),
    (py!"compactstall", .sint 344568 8),
    (py!"pgmigrate", .sint 344576 8),
    (py!"numamigrate", .sint 344584 8),
    (py!"pgouts", .sint 344592 8),
    (py!"pgins", .sint 344600 8),
    (py!"pagetables", .sint 344608 8),
    (py!"zswouts", .sint 344616 8),
    (py!"zswins", .sint 344624 8),
    (py!"ltothugepage", .sint 344632 8),
    (py!"lfreehugepage", .sint 344640 8),
    (py!"lhugepagesz", .sint 344648 8),
    (py!"availablemem", .sint 344656 8),
    (py!"anonhugepage", .sint 344664 8)]),
  (py!"net", .record <| .ofList [
    (py!"ipv4", .record <| .ofList [
      (py!"Forwarding", .sint 344712 8),
      (py!"DefaultTTL", .sint 344720 8),
      (py!"InReceives", .sint 344728 8),
      (py!"InHdrErrors", .sint 344736 8),
      (py!"InAddrErrors", .sint 344744 8),
      (py!"ForwDatagrams", .sint 344752 8),
      (py!"InUnknownProtos", .sint 344760 8),
      (py!"InDiscards", .sint 344768 8),
      (py!"InDelivers", .sint 344776 8),
      (py!"OutRequests", .sint 344784 8),
      (py!"OutDiscards", .sint 344792 8),
      (py!"OutNoRoutes", .sint 344800 8),
      (py!"ReasmTimeout", .sint 344808 8),
      (py!"ReasmReqds", .sint 344816 8),
      (py!"ReasmOKs", .sint 344824 8),
      (py!"ReasmFails", .sint 344832 8),
      (py!"FragOKs", .sint 344840 8),
      (py!"FragFails", .sint 344848 8),
      (py!"FragCreates", .sint 344856 8)]),
    (py!"icmpv4", .record <| .ofList [
      (py!"InMsgs", .sint 344864 8),
      (py!"InErrors", .sint 344872 8),
      (py!"InCsumErrors", .sint 344880 8),
      (py!"InDestUnreachs", .sint 344888 8),
      (py!"InTimeExcds", .sint 344896 8),
      (py!"InParmProbs", .sint 344904 8),
      (py!"InSrcQuenchs", .sint 344912 8),
      (py!"InRedirects", .sint 344920 8),
      (py!"InEchos", .sint 344928 8),
      (py!"InEchoReps", .sint 344936 8),
      (py!"InTimestamps", .sint 344944 8),
      (py!"InTimestampReps", .sint 344952 8),
      (py!"InAddrMasks", .sint 344960 8),
      (py!"InAddrMaskReps", .sint 344968 8),
      (py!"OutMsgs", .sint 344976 8),
      (py!"OutErrors", .sint 344984 8),
      (py!"OutDestUnreachs", .sint 344992 8),
      (py!"OutTimeExcds", .sint 345000 8),
      (py!"OutParmProbs", .sint 345008 8),
      (py!"OutSrcQuenchs", .sint 345016 8),
      (py!"OutRedirects", .sint 345024 8),
      (py!"OutEchos", .sint 345032 8),
      (py!"OutEchoReps", .sint 345040 8),
      (py!"OutTimestamps", .sint 345048 8),
      (py!"OutTimestampReps", .sint 345056 8),
      (py!"OutAddrMasks", .sint 345064 8),
      (py!"OutAddrMaskReps", .sint 345072 8)]),
    (py!"udpv4", .record <| .ofList [
      (py!"InDatagrams", .sint 345080 8),
      (py!"NoPorts", .sint 345088 8),
      (py!"InErrors", .sint 345096 8),
      (py!"OutDatagrams", .sint 345104 8)]),
    (py!"ipv6", .record <| .ofList [
      (py!"Ip6InReceives", .sint 345112 8),
      (py!"Ip6InHdrErrors", .sint 345120 8),
      (py!"Ip6InTooBigErrors", .sint 345128 8),
      (py!"Ip6InNoRoutes", .sint 345136 8),
      (py!"Ip6InAddrErrors", .sint 345144 8),
      (py!"Ip6InUnknownProtos", .sint 345152 8),
      (py!"Ip6InTruncatedPkts", .sint 345160 8),
      (py!"Ip6InDiscards", .sint 345168 8),
      (py!"Ip6InDelivers", .sint 345176 8),
      (py!"Ip6OutForwDatagrams", .sint 345184 8),
      (py!"Ip6OutRequests", .sint 345192 8),
      (py!"Ip6OutDiscards", .sint 345200 8),
      (py!"Ip6OutNoRoutes", .sint 345208 8),
      (py!"Ip6ReasmTimeout", .sint 345216 8),
      (py!"Ip6ReasmReqds", .sint 345224 8),
      (py!"Ip6ReasmOKs", .sint 345232 8),
      (py!"Ip6ReasmFails", .sint 345240 8),
      (py!"Ip6FragOKs", .sint 345248 8),
      (py!"Ip6FragFails", .sint 345256 8),
      (py!"Ip6FragCreates", .sint 345264 8),
      (py!"Ip6InMcastPkts", .sint 345272 8),
      (py!"Ip6OutMcastPkts", .sint 345280 8)]),
    (py!"icmpv6", .record <| .ofList [
      (py!"Icmp6InMsgs", .sint 345288 8),
      (py!"Icmp6InErrors", .sint 345296 8),
      (py!"Icmp6InDestUnreachs", .sint 345304 8),
      (py!"Icmp6InPktTooBigs", .sint 345312 8),
      (py!"Icmp6InTimeExcds", .sint 345320 8),
      (py!"Icmp6InParmProblems", .sint 345328 8),
      (py!"Icmp6InEchos", .sint 345336 8),
      (py!"Icmp6InEchoReplies", .sint 345344 8),
      (py!"Icmp6InGroupMembQueries", .sint 345352 8),
      (py!"Icmp6InGroupMembResponses", .sint 345360 8),
      (py!"Icmp6InGroupMembReductions", .sint 345368 8),
      (py!"Icmp6InRouterSolicits", .sint 345376 8),
      (py!"Icmp6InRouterAdvertisements", .sint 345384 8),
      (py!"Icmp6InNeighborSolicits", .sint 345392 8),
      (py!"Icmp6InNeighborAdvertisements", .sint 345400 8),
      (py!"Icmp6InRedirects", .sint 345408 8),
      (py!"Icmp6OutMsgs", .sint 345416 8),
      (py!"Icmp6OutDestUnreachs", .sint 345424 8),
      (py!"Icmp6OutPktTooBigs", .sint 345432 8),
      (py!"Icmp6OutTimeExcds", .sint 345440 8),
      (py!"Icmp6OutParmProblems", .sint 345448 8),
      (py!"Icmp6OutEchoReplies", .sint 345456 8),
      (py!"Icmp6OutRouterSolicits", .sint 345464 8),
      (py!"Icmp6OutNeighborSolicits", .sint 345472 8),
      (py!"Icmp6OutNeighborAdvertisements", .sint 345480 8),
      (py!"Icmp6OutRedirects", .sint 345488 8),
      (py!"Icmp6OutGroupMembResponses", .sint 345496 8),
      (py!"Icmp6OutGroupMembReductions", .sint 345504 8)]),
    (py!"udpv6", .record <| .ofList [
      (py!"Udp6InDatagrams", .sint 345512 8),
      (py!"Udp6NoPorts", .sint 345520 8),
      (py!"Udp6InErrors", .sint 345528 8),
      (py!"Udp6OutDatagrams", .sint 345536 8)]),
    (py!"tcp", .record <| .ofList [
      (py!"RtoAlgorithm", .sint 345544 8),
      (py!"RtoMin", .sint 345552 8),
      (py!"RtoMax", .sint 345560 8),
      (py!"MaxConn", .sint 345568 8),
      (py!"ActiveOpens", .sint 345576 8),
      (py!"PassiveOpens", .sint 345584 8),
      (py!"AttemptFails", .sint 345592 8),
      (py!"EstabResets", .sint 345600 8),
      (py!"CurrEstab", .sint 345608 8),
      (py!"InSegs", .sint 345616 8),
      (py!"OutSegs", .sint 345624 8),
      (py!"RetransSegs", .sint 345632 8),
      (py!"InErrs", .sint 345640 8),
      (py!"OutRsts", .sint 345648 8),
      (py!"InCsumErrors", .sint 345656 8)])]),
  (py!"intf", .record <| .ofList [
    (py!"nrintf", .sint 345664 4),
    (py!"intf", .list 128 272 (some (345664, 4, true)) <| .record <| .ofList [
      (py!"name", .text 345672 16),
      (py!"rbyte", .sint 345688 8),
      (py!"rpack", .sint 345696 8),
      (py!"rerrs", .sint 345704 8),
      (py!"rdrop", .sint 345712 8),
      (py!"rfifo", .sint 345720 8),
      (py!"rframe", .sint 345728 8),
      (py!"rcompr", .sint 345736 8),
      (py!"rmultic", .sint 345744 8),
      (py!"sbyte", .sint 345784 8),
      (py!"spack", .sint 345792 8),
      (py!"serrs", .sint 345800 8),
      (py!"sdrop", .sint 345808 8),
      (py!"sfifo", .sint 345816 8),
      (py!"scollis", .sint 345824 8),
      (py!"scarrier", .sint 345832 8),
      (py!"scompr", .sint 345840 8),
      (py!"type", .char 345880),
      (py!"speed", .sint 345888 8),
      (py!"speedp", .sint 345896 8),
      (py!"duplex", .char 345904)])]),
  (py!"memnuma", .record <| .ofList [
    (py!"nrnuma", .sint 380488 8),
    (py!"numa", .list 1024 112 (some (380488, 8, true)) <| .record <| .ofList [
      (py!"numanr", .sint 380496 4),
      (py!"frag", .float 380500),
      (py!"totmem", .sint 380504 8),
      (py!"freemem", .sint 380512 8),
      (py!"filepage", .sint 380520 8),
      (py!"dirtymem", .sint 380528 8),
      (py!"slabmem", .sint 380536 8),
      (py!"slabreclaim", .sint 380544 8),
      (py!"active", .sint 380552 8),
      (py!"inactive", .sint 380560 8),
      (py!"shmem", .sint 380568 8),
      (py!"tothp", .sint 380576 8),
      (py!"freehp", .sint 380584 8)])]),
  (py!"cpunuma", .record <| .ofList [
    (py!"nrnuma", .sint 495184 8),
    (py!"numa", .list 1024 104 (some (495184, 8, true)) <| .record <| .ofList [
      (py!"numanr", .sint 495192 4),
      (py!"nrcpu", .sint 495200 8),
      (py!"stime", .sint 495208 8),
      (py!"utime", .sint 495216 8),
      (py!"ntime", .sint 495224 8),
      (py!"itime", .sint 495232 8),
      (py!"wtime", .sint 495240 8),
      (py!"Itime", .sint 495248 8),
      (py!"Stime", .sint 495256 8),
      (py!"steal", .sint 495264 8),
      (py!"guest", .sint 495272 8)])]),
  (py!"dsk", .record <| .ofList [
    (py!"ndsk", .sint 601688 4),
    (py!"nmdd", .sint 601692 4),
    (py!"nlvm", .sint 601696 4),
    (py!"dsk", .list 1024 128 (some (601688, 4, true)) <| .record <| .ofList [
      (py!"name", .text 601704 32),
      (py!"nread", .sint 601736 8),
      (py!"nrsect", .sint 601744 8),
      (py!"nwrite", .sint 601752 8),
      (py!"nwsect", .sint 601760 8),
      (py!"io_ms", .sint 601768 8),
      (py!"avque", .sint 601776 8),
      (py!"ndisc", .sint 601784 8),
      (py!"ndsect", .sint 601792 8),
      (py!"inflight", .sint 601800 8)]),
    (py!"mdd", .list 256 128 (some (601692, 4, true)) <| .record <| .ofList [
      (py!"name", .text 732776 32),
      (py!"nread", .sint 732808 8),
      (py!"nrsect", .sint 732816 8),
      (py!"nwrite", .sint 732824 8),
      (py!"nwsect", .sint 732832 8),
      (py!"io_ms", .sint 732840 8),
      (py!"avque", .sint 732848 8),
      (py!"ndisc", .sint 732856 8),
      (py!"ndsect", .sint 732864 8),
      (py!"inflight", .sint 732872 8)]),
    (py!"lvm", .list 2048 128 (some (601696, 4, true)) <| .record <| .ofList [
      (py!"name", .text 765544 32),
      (py!"nread", .sint 765576 8),
      (py!"nrsect", .sint 765584 8),
      (py!"nwrite", .sint 765592 8),
      (py!"nwsect", .sint 765600 8),
      (py!"io_ms", .sint 765608 8),
      (py!"avque", .sint 765616 8),
      (py!"ndisc", .sint 765624 8),
      (py!"ndsect", .sint 765632 8),
      (py!"inflight", .sint 765640 8)])]),
  (py!"nfs", .record <| .ofList [
    (py!"server", .record <| .ofList [
      (py!"netcnt", .sint 1027688 8),
      (py!"netudpcnt", .sint 1027696 8),
      (py!"nettcpcnt", .sint 1027704 8),
      (py!"nettcpcon", .sint 1027712 8),
      (py!"rpccnt", .sint 1027720 8),
      (py!"rpcbadfmt", .sint 1027728 8),
      (py!"rpcbadaut", .sint 1027736 8),
      (py!"rpcbadcln", .sint 1027744 8),
      (py!"rpcread", .sint 1027752 8),
      (py!"rpcwrite", .sint 1027760 8),
      (py!"rchits", .sint 1027768 8),
      (py!"rcmiss", .sint 1027776 8),
      (py!"rcnoca", .sint 1027784 8),
      (py!"nrbytes", .sint 1027792 8),
      (py!"nwbytes", .sint 1027800 8)]),
    (py!"client", .record <| .ofList [
      (py!"rpccnt", .sint 1027872 8),
      (py!"rpcretrans", .sint 1027880 8),
      (py!"rpcautrefresh", .sint 1027888 8),
      (py!"rpcread", .sint 1027896 8),
      (py!"rpcwrite", .sint 1027904 8)]),
    (py!"nfsmounts", .record <| .ofList [
      (py!"nrmounts", .sint 1027976 4),
      (py!"nfsmnt", .list 64 264 (some (1027976, 4, true)) <| .record <| .ofList [
        (py!"mountdev", .text 1027984 128),
        (py!"age", .sint 1028112 8),
        (py!"bytesread", .sint 1028120 8),
        (py!"byteswrite", .sint 1028128 8),
        (py!"bytesdread", .sint 1028136 8),
        (py!"bytesdwrite", .sint 1028144 8),
        (py!"bytestotread", .sint 1028152 8),
        (py!"bytestotwrite", .sint 1028160 8),
        (py!"pagesmread", .sint 1028168 8),
        (py!"pagesmwrite", .sint 1028176 8)])])]),
  (py!"cfs", .record <| .ofList [
    (py!"nrcontainer", .sint 1044880 4),
    (py!"cont", .list 128 56 (some (1044880, 4, true)) <| .record <| .ofList [
      (py!"ctid", .uint 1044888 8),
      (py!"numproc", .uint 1044896 8),
      (py!"system", .sint 1044904 8),
      (py!"user", .sint 1044912 8),
      (py!"nice", .sint 1044920 8),
      (py!"uptime", .sint 1044928 8),
      (py!"physpages", .sint 1044936 8)])]),
  (py!"psi", .record <| .ofList [
    (py!"present", .char 1052056),
    (py!"cpusome", .record <| .ofList [
      (py!"avg10", .float 1052064),
      (py!"avg60", .float 1052068),
      (py!"avg300", .float 1052072),
      (py!"total", .sint 1052080 8)]),
    (py!"memsome", .record <| .ofList [
      (py!"avg10", .float 1052088),
      (py!"avg60", .float 1052092),
      (py!"avg300", .float 1052096),
      (py!"total", .sint 1052104 8)]),
    (py!"memfull", .record <| .ofList [
      (py!"avg10", .float 1052112),
      (py!"avg60", .float 1052116),
      (py!"avg300", .float 1052120),
      (py!"total", .sint 1052128 8)]),
    (py!"iosome", .record <| .ofList [
      (py!"avg10", .float 1052136),
      (py!"avg60", .float 1052140),
      (py!"avg300", .float 1052144),
      (py!"total", .sint 1052152 8)]),
    (py!"iofull", .record <| .ofList [
      (py!"avg10", .float 1052160),
      (py!"avg60", .float 1052164),
      (py!"avg300", .float 1052168),
      (py!"total", .sint 1052176 8)])]),
  (py!"gpu", .record <| .ofList [
    (py!"nrgpus", .sint 1052184 4),
    (py!"gpu", .list 32 88 (some (1052184, 4, true)) <| .record <| .ofList [
      (py!"taskstats", .char 1052192),
      (py!"nrprocs", .uint 1052193 1),
      (py!"type", .text 1052194 13),
      (py!"busid", .text 1052207 13),
      (py!"gpunr", .sint 1052220 4),
      (py!"gpupercnow", .sint 1052224 4),
      (py!"mempercnow", .sint 1052228 4),
      (py!"memtotnow", .sint 1052232 8),
      (py!"memusenow", .sint 1052240 8),
      (py!"samples", .sint 1052248 8),
      (py!"gpuperccum", .sint 1052256 8),
      (py!"memperccum", .sint 1052264 8),
      (py!"memusecum", .sint 1052272 8)])]),
  (py!"ifb", .record <| .ofList [
    (py!"nrports", .sint 1055008 4),
    (py!"ifb", .list 32 88 (some (1055008, 4, true)) <| .record <| .ofList [
      (py!"ibname", .text 1055016 12),
      (py!"portnr", .sint 1055028 2),
      (py!"lanes", .sint 1055030 2),
      (py!"rate", .sint 1055032 8),
      (py!"rcvb", .sint 1055040 8),
      (py!"sndb", .sint 1055048 8),
      (py!"rcvp", .sint 1055056 8),
      (py!"sndp", .sint 1055064 8)])]),
  (py!"llc", .record <| .ofList [
    (py!"nrllcs", .sint 1057832 4),
    (py!"perllc", .list 256 24 (some (1057832, 4, true)) <| .record <| .ofList [
      (py!"id", .uint 1057840 1),
      (py!"occupancy", .float 1057844),
      (py!"mbm_local", .sint 1057848 8),
      (py!"mbm_total", .sint 1057856 8)])]),
  (py!"www", .record <| .ofList [
    (py!"accesses", .sint 1063984 8),
    (py!"totkbytes", .sint 1063992 8),
    (py!"uptime", .sint 1064000 8),
    (py!"bworkers", .sint 1064008 4),
    (py!"iworkers", .sint 1064012 4)])]

/-- tstat of version 2.12: 968 bytes -/
def L2_12.tstat : Node := .record <| .ofList [
  (py!"gen", .record <| .ofList [
    (py!"tgid", .sint 0 4),
    (py!"pid", .sint 4 4),
    (py!"ppid", .sint 8 4),
    (py!"ruid", .sint 12 4),
    (py!"euid", .sint 16 4),
    (py!"suid", .sint 20 4),
    (py!"fsuid", .sint 24 4),
    (py!"rgid", .sint 28 4),
    (py!"egid", .sint 32 4),
    (py!"sgid", .sint 36 4),
    (py!"fsgid", .sint 40 4),
    (py!"nthr", .sint 44 4),
    (py!"name", .text 48 16),
    (py!"isproc", .char 64),
    (py!"state", .char 65),
    (py!"excode", .sint 68 4),
    (py!"btime", .sint 72 8),
    (py!"elaps", .sint 80 8),
    (py!"cmdline", .text 88 256),
    (py!"nthrslpi", .sint 344 4),
    (py!"nthrslpu", .sint 348 4),
    (py!"nthrrun", .sint 352 4),
    (py!"nthridle", .sint 356 4),
    (py!"ctid", .sint 360 4),
    (py!"vpid", .sint 364 4),
    (py!"wasinactive", .sint 368 4),
    (py!"utsname", .text 372 16),
    (py!"cgroupix", .sint 388 4)]),
  (py!"cpu", .record <| .ofList [
    (py!"utime", .sint 408 8),
    (py!"stime", .sint 416 8),
    (py!"nice", .sint 424 4),
    (py!"prio", .sint 428 4),
    (py!"rtprio", .sint 432 4),
    (py!"policy", .sint 436 4),
    (py!"curcpu", .sint 440 4),
    (py!"sleepavg", .sint 444 4),
    (py!"wchan", .text 472 16),
    (py!"rundelay", .sint 488 8),
    (py!"blkdelay", .sint 496 8),
    (py!"nvcsw", .sint 504 8),
    (py!"nivcsw", .sint 512 8)]),
  (py!"dsk", .record <| .ofList [
    (py!"rio", .sint 544 8),
    (py!"rsz", .sint 552 8),
    (py!"wio", .sint 560 8),
    (py!"wsz", .sint 568 8),
    (py!"cwsz", .sint 576 8)]),
  (py!"mem", .record <| .ofList [
    (py!"minflt", .sint 616 8),
    (py!"majflt", .sint 624 8),
    (py!"vexec", .sint 632 8),
    (py!"vmem", .sint 640 8),
    (py!"rmem", .sint 648 8),
    (py!"pmem", .sint 656 8),
    (py!"vgrow", .sint 664 8),
    (py!"rgrow", .sint 672 8),
    (py!"vdata", .sint 680 8),
    (py!"vstack", .sint 688 8),
    (py!"vlibs", .sint 696 8),
    (py!"vswap", .sint 704 8),
    (py!"vlock", .sint 712 8)]),
  (py!"net", .record <| .ofList [
    (py!"tcpsnd", .sint 776 8),
    (py!"tcpssz", .sint 784 8),
    (py!"tcprcv", .sint 792 8),
    (py!"tcprsz", .sint 800 8),
    (py!"udpsnd", .sint 808 8),
    (py!"udpssz", .sint 816 8),
    (py!"udprcv", .sint 824 8),
    (py!"udprsz", .sint 832 8),
    (py!"avail1", .sint 840 8),
    (py!"avail2", .sint 848 8)]),
  (py!"gpu", .record <| .ofList [
    (py!"state", .char 888),
    (py!"nrgpus", .sint 892 2),
    (py!"gpulist", .sint 896 4),
    (py!"gpubusy", .sint 900 4),
    (py!"membusy", .sint 904 4),
    (py!"timems", .sint 912 8),
    (py!"memnow", .sint 920 8),
    (py!"memcum", .sint 928 8),
    (py!"sample", .sint 936 8)])]

/-- cstat of version 2.12: 432 bytes -/
def L2_12.cstat : Node := .record <| .ofList [
  (py!"gen", .record <| .ofList [
    (py!"structlen", .sint 0 4),
    (py!"sequence", .sint 4 4),
    (py!"parentseq", .sint 8 4),
    (py!"depth", .sint 12 4),
    (py!"nprocs", .sint 16 4),
    (py!"procsbelow", .sint 20 4),
    (py!"namelen", .sint 24 4),
    (py!"fullnamelen", .sint 28 4),
    (py!"namehash", .sint 48 8)]),
  (py!"conf", .record <| .ofList [
    (py!"cpuweight", .sint 88 4),
    (py!"cpumax", .sint 92 4),
    (py!"memmax", .sint 96 8),
    (py!"swpmax", .sint 104 8),
    (py!"dskweight", .sint 112 4)]),
  (py!"cpu", .record <| .ofList [
    (py!"utime", .sint 176 8),
    (py!"stime", .sint 184 8),
    (py!"somepres", .sint 192 8),
    (py!"fullpres", .sint 200 8)]),
  (py!"mem", .record <| .ofList [
    (py!"current", .sint 248 8),
    (py!"anon", .sint 256 8),
    (py!"file", .sint 264 8),
    (py!"kernel", .sint 272 8),
    (py!"shmem", .sint 280 8),
    (py!"somepres", .sint 288 8),
    (py!"fullpres", .sint 296 8)]),
  (py!"dsk", .record <| .ofList [
    (py!"rbytes", .sint 344 8),
    (py!"wbytes", .sint 352 8),
    (py!"rios", .sint 360 8),
    (py!"wios", .sint 368 8),
    (py!"somepres", .sint 376 8),
    (py!"fullpres", .sint 384 8)]),
  (py!"cgname", .text 432 0)]

end Atop.Spec
