-- GENERATED by tools/gen_layouts.py from the text of /repo/atoparser/structs/atop_2_10.py. Do not edit.
import Verif.Spec.Node
/-!
# Byte layout of the blocks of an atop 2.10 log
-/

namespace Atop.Spec

/-- header of version 2.10: 480 bytes -/
def L2_10.header : Node := .record <| .ofList [
  (py!"magic", .uint 0 4),
  (py!"aversion", .uint 4 2),
  (py!"rawheadlen", .uint 10 2),
  (py!"rawreclen", .uint 12 2),
  (py!"hertz", .uint 14 2),
  (py!"pidwidth", .uint 16 2),
  (py!"sstatlen", .uint 28 4),
  (py!"tstatlen", .uint 32 4),
  (py!"utsname", .record <| .ofList [
    (py!"sysname", .text 36 65),
    (py!"nodename", .text 101 65),
    (py!"release", .text 166 65),
    (py!"version", .text 231 65),
    (py!"machine", .text 296 65),
    (py!"domain", .text 361 65)]),
  (py!"pagesize", .uint 436 4),
  (py!"supportflags", .sint 440 4),
  (py!"osrel", .sint 444 4),
  (py!"osvers", .sint 448 4),
  (py!"ossub", .sint 452 4)]

/-- record of version 2.10: 96 bytes -/
def L2_10.record : Node := .record <| .ofList [
  (py!"curtime", .sint 0 8),
  (py!"flags", .uint 8 2),
  (py!"scomplen", .uint 16 4),
  (py!"pcomplen", .uint 20 4),
  (py!"interval", .uint 24 4),
  (py!"ndeviat", .uint 28 4),
  (py!"nactproc", .uint 32 4),
  (py!"ntask", .uint 36 4),
  (py!"totproc", .uint 40 4),
  (py!"totrun", .uint 44 4),
  (py!"totslpi", .uint 48 4),
  (py!"totslpu", .uint 52 4),
  (py!"totzomb", .uint 56 4),
  (py!"nexit", .uint 60 4),
  (py!"noverflow", .uint 64 4),
  (py!"totidle", .uint 68 4)]

/-- sstat of version 2.10: 1030216 bytes -/
def L2_10.sstat : Node := .record <| .ofList [
  (py!"cpu", .record <| .ofList [
    (py!"nrcpu", .sint 0 8),
    (py!"devint", .sint 8 8),
    (py!"csw", .sint 16 8),
    (py!"nprocs", .sint 24 8),
    (py!"lavg1", .float 32),
    (py!"lavg5", .float 36),
    (py!"lavg15", .float 40),
    (py!"all", .record <| .ofList [
      (py!"cpunr", .sint 80 4),
      (py!"stime", .sint 88 8),
      (py!"utime", .sint 96 8),
      (py!"ntime", .sint 104 8),
      (py!"itime", .sint 112 8),
      (py!"wtime", .sint 120 8),
      (py!"Itime", .sint 128 8),
      (py!"Stime", .sint 136 8),
      (py!"steal", .sint 144 8),
      (py!"guest", .sint 152 8),
      (py!"freqcnt", .record <| .ofList [
        (py!"maxfreq", .sint 160 8),
        (py!"cnt", .sint 168 8),
        (py!"ticks", .sint 176 8)]),
      (py!"instr", .sint 184 8),
      (py!"cycle", .sint 192 8)]),
    (py!"cpu", .list 2048 168 (some (0, 8, true)) <| .record <| .ofList [
      (py!"cpunr", .sint 248 4),
      (py!"stime", .sint 256 8),
      (py!"utime", .sint 264 8),
      (py!"ntime", .sint 272 8),
      (py!"itime", .sint 280 8),
      (py!"wtime", .sint 288 8),
      (py!"Itime", .sint 296 8),
      (py!"Stime", .sint 304 8),
      (py!"steal", .sint 312 8),
      (py!"guest", .sint 320 8),
      (py!"freqcnt", .record <| .ofList [
        (py!"maxfreq", .sint 328 8),
        (py!"cnt", .sint 336 8),
        (py!"ticks", .sint 344 8)]),
      (py!"instr", .sint 352 8),
      (py!"cycle", .sint 360 8)])]),
  (py!"mem", .record <| .ofList [
    (py!"physmem", .sint 344312 8),
    (py!"freemem", .sint 344320 8),
    (py!"buffermem", .sint 344328 8),
    (py!"slabmem", .sint 344336 8),
    (py!"cachemem", .sint 344344 8),
    (py!"cachedrt", .sint 344352 8),
    (py!"totswap", .sint 344360 8),
    (py!"freeswap", .sint 344368 8),
    (py!"pgscans", .sint 344376 8),
    (py!"pgsteal", .sint 344384 8),
    (py!"allocstall", .sint 344392 8),
    (py!"swouts", .sint 344400 8),
    (py!"swins", .sint 344408 8),
    (py!"tcpsock", .sint 344416 8),
    (py!"udpsock", .sint 344424 8),
    (py!"commitlim", .sint 344432 8),
    (py!"committed", .sint 344440 8),
    (py!"shmem", .sint 344448 8),
    (py!"shmrss", .sint 344456 8),
    (py!"shmswp", .sint 344464 8),
    (py!"slabreclaim", .sint 344472 8),
    (py!"stothugepage", .sint 344480 8),
    (py!"sfreehugepage", .sint 344488 8),
    (py!"shugepagesz", .sint 344496 8),
    (py!"vmwballoon", .sint 344504 8),
    (py!"zfsarcsize", .sint 344512 8),
    (py!"swapcached", .sint 344520 8),
    (py!"ksmsharing", .sint 344528 8),
    (py!"ksmshared", .sint 344536 8),
    (py!"zswapped", .sint 344544 8),
    (py!"zswap", .sint 344552 8),
    (py!"oomkills", .sint 344560 8),
    (py!"compactstall", .sint 344568 8),
    (py!"pgmigrate", .sint 344576 8),
    (py!"numamigrate", .sint 344584 8),
    (py!"pgouts", .sint 344592 8),
    (py!"pgins", .sint 344600 8),
    (py!"pagetables", .sint 344608 8),
    (py!"zswouts", .sint 344616 8),
    (py!"zswins", .sint 344624 8),
    (py!"ltothugepage", .sint 344632 8),
    (py!"lfreehugepage", .sint 344640 8),
    (py!"lhugepagesz", .sint 344648 8),
    (py!"availablemem", .sint 344656 8),
    (py!"anonhugepage", .sint 344664 8)]),
  (py!"net", .record <| .ofList [
    (py!"ipv4", .record <| .ofList [
      (py!"Forwarding", .sint 344704 8),
      (py!"DefaultTTL", .sint 344712 8),
      (py!"InReceives", .sint 344720 8),
      (py!"InHdrErrors", .sint 344728 8),
      (py!"InAddrErrors", .sint 344736 8),
      (py!"ForwDatagrams", .sint 344744 8),
      (py!"InUnknownProtos", .sint 344752 8),
      (py!"InDiscards", .sint 344760 8),
      (py!"InDelivers", .sint 344768 8),
      (py!"OutRequests", .sint 344776 8),
      (py!"OutDiscards", .sint 344784 8),
      (py!"OutNoRoutes", .sint 344792 8),
      (py!"ReasmTimeout", .sint 344800 8),
      (py!"ReasmReqds", .sint 344808 8),
      (py!"ReasmOKs", .sint 344816 8),
      (py!"ReasmFails", .sint 344824 8),
      (py!"FragOKs", .sint 344832 8),
      (py!"FragFails", .sint 344840 8),
      (py!"FragCreates", .sint 344848 8)]),
    (py!"icmpv4", .record <| .ofList [
      (py!"InMsgs", .sint 344856 8),
      (py!"InErrors", .sint 344864 8),
      (py!"InCsumErrors", .sint 344872 8),
      (py!"InDestUnreachs", .sint 344880 8),
      (py!"InTimeExcds", .sint 344888 8),
      (py!"InParmProbs", .sint 344896 8),
      (py!"InSrcQuenchs", .sint 344904 8),
      (py!"InRedirects", .sint 344912 8),
      (py!"InEchos", .sint 344920 8),
      (py!"InEchoReps", .sint 344928 8),
      (py!"InTimestamps", .sint 344936 8),
      (py!"InTimestampReps", .sint 344944 8),
      (py!"InAddrMasks", .sint 344952 8),
      (py!"InAddrMaskReps", .sint 344960 8),
      (py!"OutMsgs", .sint 344968 8),
      (py!"OutErrors", .sint 344976 8),
      (py!"OutDestUnreachs", .sint 344984 8),
      (py!"OutTimeExcds", .sint 344992 8),
      (py!"OutParmProbs", .sint 345000 8),
      (py!"OutSrcQuenchs", .sint 345008 8),
      (py!"OutRedirects", .sint 345016 8),
      (py!"OutEchos", .sint 345024 8),
      (py!"OutEchoReps", .sint 345032 8),
      (py!"OutTimestamps", .sint 345040 8),
      (py!"OutTimestampReps", .sint 345048 8),
      (py!"OutAddrMasks", .sint 345056 8),
      (py!"OutAddrMaskReps", .sint 345064 8)]),
    (py!"udpv4", .record <| .ofList [
      (py!"InDatagrams", .sint 345072 8),
      (py!"NoPorts", .sint 345080 8),
      (py!"InErrors", .sint 345088 8),
      (py!"OutDatagrams", .sint 345096 8)]),
    (py!"ipv6", .record <| .ofList [
      (py!"Ip6InReceives", .sint 345104 8),
      (py!"Ip6InHdrErrors", .sint 345112 8),
      (py!"Ip6InTooBigErrors", .sint 345120 8),
      (py!"Ip6InNoRoutes", .sint 345128 8),
      (py!"Ip6InAddrErrors", .sint 345136 8),
      (py!"Ip6InUnknownProtos", .sint 345144 8),
      (py!"Ip6InTruncatedPkts", .sint 345152 8),
      (py!"Ip6InDiscards", .sint 345160 8),
      (py!"Ip6InDelivers", .sint 345168 8),
      (py!"Ip6OutForwDatagrams", .sint 345176 8),
      (py!"Ip6OutRequests", .sint 345184 8),
      (py!"Ip6OutDiscards", .sint 345192 8),
      (py!"Ip6OutNoRoutes", .sint 345200 8),
      (py!"Ip6ReasmTimeout", .sint 345208 8),
      (py!"Ip6ReasmReqds", .sint 345216 8),
      (py!"Ip6ReasmOKs", .sint 345224 8),
      (py!"Ip6ReasmFails", .sint 345232 8),
      (py!"Ip6FragOKs", .sint 345240 8),
      (py!"Ip6FragFails", .sint 345248 8),
      (py!"Ip6FragCreates", .sint 345256 8),
      (py!"Ip6InMcastPkts", .sint 345264 8),
      (py!"Ip6OutMcastPkts", .sint 345272 8)]),
    (py!"icmpv6", .record <| .ofList [
      (py!"Icmp6InMsgs", .sint 345280 8),
      (py!"Icmp6InErrors", .sint 345288 8),
      (py!"Icmp6InDestUnreachs", .sint 345296 8),
      (py!"Icmp6InPktTooBigs", .sint 345304 8),
      (py!"Icmp6InTimeExcds", .sint 345312 8),
      (py!"Icmp6InParmProblems", .sint 345320 8),
      (py!"Icmp6InEchos", .sint 345328 8),
      (py!"Icmp6InEchoReplies", .sint 345336 8),
      (py!"Icmp6InGroupMembQueries", .sint 345344 8),
      (py!"Icmp6InGroupMembResponses", .sint 345352 8),
      (py!"Icmp6InGroupMembReductions", .sint 345360 8),
      (py!"Icmp6InRouterSolicits", .sint 345368 8),
      (py!"Icmp6InRouterAdvertisements", .sint 345376 8),
      (py!"Icmp6InNeighborSolicits", .sint 345384 8),
      (py!"Icmp6InNeighborAdvertisements", .sint 345392 8),
      (py!"Icmp6InRedirects", .sint 345400 8),
      (py!"Icmp6OutMsgs", .sint 345408 8),
      (py!"Icmp6OutDestUnreachs", .sint 345416 8),
      (py!"Icmp6OutPktTooBigs", .sint 345424 8),
      (py!"Icmp6OutTimeExcds", .sint 345432 8),
      (py!"Icmp6OutParmProblems", .sint 345440 8),
      (py!"Icmp6OutEchoReplies", .sint 345448 8),
      (py!"Icmp6OutRouterSolicits", .sint 345456 8),
      (py!"Icmp6OutNeighborSolicits", .sint 345464 8),
      (py!"Icmp6OutNeighborAdvertisements", .sint 345472 8),
      (py!"Icmp6OutRedirects", .sint 345480 8),
      (py!"Icmp6OutGroupMembResponses", .sint 345488 8),
      (py!"Icmp6OutGroupMembReductions", .sint 345496 8)]),
    (py!"udpv6", .record <| .ofList [
      (py!"Udp6InDatagrams", .sint 345504 8),
      (py!"Udp6NoPorts", .sint 345512 8),
      (py!"Udp6InErrors", .sint 345520 8),
      (py!"Udp6OutDatagrams", .sint 345528 8)]),
    (py!"tcp", .record <| .ofList [
      (py!"RtoAlgorithm", .sint 345536 8),
      (py!"RtoMin", .sint 345544 8),
      (py!"RtoMax", .sint 345552 8),
      (py!"MaxConn", .sint 345560 8),
      (py!"ActiveOpens", .sint 345568 8),
      (py!"PassiveOpens", .sint 345576 8),
      (py!"AttemptFails", .sint 345584 8),
      (py!"EstabResets", .sint 345592 8),
      (py!"CurrEstab", .sint 345600 8),
      (py!"InSegs", .sint 345608 8),
      (py!"OutSegs", .sint 345616 8),
      (py!"RetransSegs", .sint 345624 8),
      (py!"InErrs", .sint 345632 8),
      (py!"OutRsts", .sint 345640 8),
      (py!"InCsumErrors", .sint 345648 8)])]),
  (py!"intf", .record <| .ofList [
    (py!"nrintf", .sint 345656 4),
    (py!"intf", .list 128 272 (some (345656, 4, true)) <| .record <| .ofList [
      (py!"name", .text 345664 16),
      (py!"rbyte", .sint 345680 8),
      (py!"rpack", .sint 345688 8),
      (py!"rerrs", .sint 345696 8),
      (py!"rdrop", .sint 345704 8),
      (py!"rfifo", .sint 345712 8),
      (py!"rframe", .sint 345720 8),
      (py!"rcompr", .sint 345728 8),
      (py!"rmultic", .sint 345736 8),
      (py!"sbyte", .sint 345776 8),
      (py!"spack", .sint 345784 8),
      (py!"serrs", .sint 345792 8),
      (py!"sdrop", .sint 345800 8),
      (py!"sfifo", .sint 345808 8),
      (py!"scollis", .sint 345816 8),
      (py!"scarrier", .sint 345824 8),
      (py!"scompr", .sint 345832 8),
      (py!"type", .char 345872),
      (py!"speed", .sint 345880 8),
      (py!"speedp", .sint 345888 8),
      (py!"duplex", .char 345896)])]),
  (py!"memnuma", .record <| .ofList [
    (py!"nrnuma", .sint 380480 8),
    (py!"numa", .list 1024 96 (some (380480, 8, true)) <| .record <| .ofList [
      (py!"numanr", .sint 380488 4),
      (py!"frag", .float 380492),
      (py!"totmem", .sint 380496 8),
      (py!"freemem", .sint 380504 8),
      (py!"filepage", .sint 380512 8),
      (py!"dirtymem", .sint 380520 8),
      (py!"slabmem", .sint 380528 8),
      (py!"slabreclaim", .sint 380536 8),
      (py!"active", .sint 380544 8),
      (py!"inactive", .sint 380552 8),
      (py!"shmem", .sint 380560 8),
      (py!"tothp", .sint 380568 8),
      (py!"freehp", .sint 380576 8)])]),
  (py!"cpunuma", .record <| .ofList [
    (py!"nrnuma", .sint 478792 8),
    (py!"numa", .list 1024 88 (some (478792, 8, true)) <| .record <| .ofList [
      (py!"numanr", .sint 478800 4),
      (py!"nrcpu", .sint 478808 8),
      (py!"stime", .sint 478816 8),
      (py!"utime", .sint 478824 8),
      (py!"ntime", .sint 478832 8),
      (py!"itime", .sint 478840 8),
      (py!"wtime", .sint 478848 8),
      (py!"Itime", .sint 478856 8),
      (py!"Stime", .sint 478864 8),
      (py!"steal", .sint 478872 8),
      (py!"guest", .sint 478880 8)])]),
  (py!"dsk", .record <| .ofList [
    (py!"ndsk", .sint 568912 4),
    (py!"nmdd", .sint 568916 4),
    (py!"nlvm", .sint 568920 4),
    (py!"dsk", .list 1024 128 (some (568912, 4, true)) <| .record <| .ofList [
      (py!"name", .text 568928 32),
      (py!"nread", .sint 568960 8),
      (py!"nrsect", .sint 568968 8),
      (py!"nwrite", .sint 568976 8),
      (py!"nwsect", .sint 568984 8),
      (py!"io_ms", .sint 568992 8),
      (py!"avque", .sint 569000 8),
      (py!"ndisc", .sint 569008 8),
      (py!"ndsect", .sint 569016 8),
      (py!"inflight", .sint 569024 8)]),
    (py!"mdd", .list 256 128 (some (568916, 4, true)) <| .record <| .ofList [
      (py!"name", .text 700000 32),
      (py!"nread", .sint 700032 8),
      (py!"nrsect", .sint 700040 8),
      (py!"nwrite", .sint 700048 8),
      (py!"nwsect", .sint 700056 8),
      (py!"io_ms", .sint 700064 8),
      (py!"avque", .sint 700072 8),
      (py!"ndisc", .sint 700080 8),
      (py!"ndsect", .sint 700088 8),
      (py!"inflight", .sint 700096 8)]),
    (py!"lvm", .list 2048 128 (some (568920, 4, true)) <| .record <| .ofList [
      (py!"name", .text 732768 32),
      (py!"nread", .sint 732800 8),
      (py!"nrsect", .sint 732808 8),
      (py!"nwrite", .sint 732816 8),
      (py!"nwsect", .sint 732824 8),
      (py!"io_ms", .sint 732832 8),
      (py!"avque", .sint 732840 8),
      (py!"ndisc", .sint 732848 8),
      (py!"ndsect", .sint 732856 8),
      (py!"inflight", .sint 732864 8)])]),
  (py!"nfs", .record <| .ofList [
    (py!"server", .record <| .ofList [
      (py!"netcnt", .sint 994912 8),
      (py!"netudpcnt", .sint 994920 8),
      (py!"nettcpcnt", .sint 994928 8),
      (py!"nettcpcon", .sint 994936 8),
      (py!"rpccnt", .sint 994944 8),
      (py!"rpcbadfmt", .sint 994952 8),
      (py!"rpcbadaut", .sint 994960 8),
      (py!"rpcbadcln", .sint 994968 8),
      (py!"rpcread", .sint 994976 8),
      (py!"rpcwrite", .sint 994984 8),
      (py!"rchits", .sint 994992 8),
      (py!"rcmiss", .sint 995000 8),
      (py!"rcnoca", .sint 995008 8),
      (py!"nrbytes", .sint 995016 8),
      (py!"nwbytes", .sint 995024 8)]),
    (py!"client", .record <| .ofList [
      (py!"rpccnt", .sint 995096 8),
      (py!"rpcretrans", .sint 995104 8),
      (py!"rpcautrefresh", .sint 995112 8),
      (py!"rpcread", .sint 995120 8),
      (py!"rpcwrite", .sint 995128 8)]),
    (py!"nfsmounts", .record <| .ofList [
      (py!"nrmounts", .sint 995200 4),
      (py!"nfsmnt", .list 64 264 (some (995200, 4, true)) <| .record <| .ofList [
        (py!"mountdev", .text 995208 128),
        (py!"age", .sint 995336 8),
        (py!"bytesread", .sint 995344 8),
        (py!"byteswrite", .sint 995352 8),
        (py!"bytesdread", .sint 995360 8),
        (py!"bytesdwrite", .sint 995368 8),
        (py!"bytestotread", .sint 995376 8),
        (py!"bytestotwrite", .sint 995384 8),
        (py!"pagesmread", .sint 995392 8),
        (py!"pagesmwrite", .sint 995400 8)])])]),
  (py!"cfs", .record <| .ofList [
    (py!"nrcontainer", .sint 1012104 4),
    (py!"cont", .list 128 56 (some (1012104, 4, true)) <| .record <| .ofList [
      (py!"ctid", .uint 1012112 8),
      (py!"numproc", .uint 1012120 8),
      (py!"system", .sint 1012128 8),
      (py!"user", .sint 1012136 8),
      (py!"nice", .sint 1012144 8),
      (py!"uptime", .sint 1012152 8),
      (py!"physpages", .sint 1012160 8)])]),
  (py!"psi", .record <| .ofList [
    (py!"present", .char 1019280),
    (py!"cpusome", .record <| .ofList [
      (py!"avg10", .float 1019288),
      (py!"avg60", .float 1019292),
      (py!"avg300", .float 1019296),
      (py!"total", .sint 1019304 8)]),
    (py!"memsome", .record <| .ofList [
      (py!"avg10", .float 1019312),
      (py!"avg60", .float 1019316),
      (py!"avg300", .float 1019320),
      (py!"total", .sint 1019328 8)]),
    (py!"memfull", .record <| .ofList [
      (py!"avg10", .float 1019336),
      (py!"avg60", .float 1019340),
      (py!"avg300", .float 1019344),
      (py!"total", .sint 1019352 8)]),
    (py!"iosome", .record <| .ofList [
      (py!"avg10", .float 1019360),
      (py!"avg60", .float 1019364),
      (py!"avg300", .float 1019368),
      (py!"total", .sint 1019376 8)]),
    (py!"iofull", .record <| .ofList [
      (py!"avg10", .float 1019384),
      (py!"avg60", .float 1019388),
      (py!"avg300", .float 1019392),
      (py!"total", .sint 1019400 8)])]),
  (py!"gpu", .record <| .ofList [
    (py!"nrgpus", .sint 1019408 4),
    (py!"gpu", .list 32 88 (some (1019408, 4, true)) <| .record <| .ofList [
      (py!"taskstats", .char 1019416),
      (py!"nrprocs", .uint 1019417 1),
      (py!"type", .text 1019418 13),
      (py!"busid", .text 1019431 13),
      (py!"gpunr", .sint 1019444 4),
      (py!"gpupercnow", .sint 1019448 4),
      (py!"mempercnow", .sint 1019452 4),
      (py!"memtotnow", .sint 1019456 8),
      (py!"memusenow", .sint 1019464 8),
      (py!"samples", .sint 1019472 8),
      (py!"gpuperccum", .sint 1019480 8),
      (py!"memperccum", .sint 1019488 8),
      (py!"memusecum", .sint 1019496 8)])]),
  (py!"ifb", .record <| .ofList [
    (py!"nrports", .sint 1022232 4),
    (py!"ifb", .list 32 56 (some (1022232, 4, true)) <| .record <| .ofList [
      (py!"ibname", .text 1022240 12),
      (py!"portnr", .sint 1022252 2),
      (py!"lanes", .sint 1022254 2),
      (py!"rate", .sint 1022256 8),
      (py!"rcvb", .sint 1022264 8),
      (py!"sndb", .sint 1022272 8),
      (py!"rcvp", .sint 1022280 8),
      (py!"sndp", .sint 1022288 8)])]),
  (py!"llc", .record <| .ofList [
    (py!"nrllcs", .sint 1024032 4),
    (py!"perllc", .list 256 24 (some (1024032, 4, true)) <| .record <| .ofList [
      (py!"id", .uint 1024040 1),
      (py!"occupancy", .float 1024044),
      (py!"mbm_local", .sint 1024048 8),
      (py!"mbm_total", .sint 1024056 8)])]),
  (py!"www", .record <| .ofList [
    (py!"accesses", .sint 1030184 8),
    (py!"totkbytes", .sint 1030192 8),
    (py!"uptime", .sint 1030200 8),
    (py!"bworkers", .sint 1030208 4),
    (py!"iworkers", .sint 1030212 4)])]

/-- tstat of version 2.10: 992 bytes -/
def L2_10.tstat : Node := .record <| .ofList [
  (py!"gen", .record <| .ofList [
    (py!"tgid", .sint 0 4),
    (py!"pid", .sint 4 4),
    (py!"ppid", .sint 8 4),
    (py!"ruid", .sint 12 4),
    (py!"euid", .sint 16 4),
    (py!"suid", .sint 20 4),
    (py!"fsuid", .sint 24 4),
    (py!"rgid", .sint 28 4),
    (py!"egid", .sint 32 4),
    (py!"sgid", .sint 36 4),
    (py!"fsgid", .sint 40 4),
    (py!"nthr", .sint 44 4),
    (py!"name", .text 48 16),
    (py!"isproc", .char 64),
    (py!"state", .char 65),
    (py!"excode", .sint 68 4),
    (py!"btime", .sint 72 8),
    (py!"elaps", .sint 80 8),
    (py!"cmdline", .text 88 256),
    (py!"nthrslpi", .sint 344 4),
    (py!"nthrslpu", .sint 348 4),
    (py!"nthrrun", .sint 352 4),
    (py!"nthridle", .sint 356 4),
    (py!"ctid", .sint 360 4),
    (py!"vpid", .sint 364 4),
    (py!"wasinactive", .sint 368 4),
    (py!"utsname", .text 372 16),
    (py!"cgpath", .text 388 64)]),
  (py!"cpu", .record <| .ofList [
    (py!"utime", .sint 456 8),
    (py!"stime", .sint 464 8),
    (py!"nice", .sint 472 4),
    (py!"prio", .sint 476 4),
    (py!"rtprio", .sint 480 4),
    (py!"policy", .sint 484 4),
    (py!"curcpu", .sint 488 4),
    (py!"sleepavg", .sint 492 4),
    (py!"cgcpuweight", .sint 496 4),
    (py!"cgcpumax", .sint 500 4),
    (py!"cgcpumaxr", .sint 504 4),
    (py!"wchan", .text 520 16),
    (py!"rundelay", .sint 536 8),
    (py!"blkdelay", .sint 544 8),
    (py!"nvcsw", .sint 552 8),
    (py!"nivcsw", .sint 560 8)]),
  (py!"dsk", .record <| .ofList [
    (py!"rio", .sint 592 8),
    (py!"rsz", .sint 600 8),
    (py!"wio", .sint 608 8),
    (py!"wsz", .sint 616 8),
    (py!"cwsz", .sint 624 8)]),
  (py!"mem", .record <| .ofList [
    (py!"minflt", .sint 664 8),
    (py!"majflt", .sint 672 8),
    (py!"vexec", .sint 680 8),
    (py!"vmem", .sint 688 8),
    (py!"rmem", .sint 696 8),
    (py!"pmem", .sint 704 8),
    (py!"vgrow", .sint 712 8),
    (py!"rgrow", .sint 720 8),
    (py!"vdata", .sint 728 8),
    (py!"vstack", .sint 736 8),
    (py!"vlibs", .sint 744 8),
    (py!"vswap", .sint 752 8),
    (py!"vlock", .sint 760 8),
    (py!"cgmemmax", .sint 768 8),
    (py!"cgmemmaxr", .sint 776 8),
    (py!"cgswpmax", .sint 784 8),
    (py!"cgswpmaxr", .sint 792 8)]),
  (py!"net", .record <| .ofList [
    (py!"tcpsnd", .sint 824 8),
    (py!"tcpssz", .sint 832 8),
    (py!"tcprcv", .sint 840 8),
    (py!"tcprsz", .sint 848 8),
    (py!"udpsnd", .sint 856 8),
    (py!"udpssz", .sint 864 8),
    (py!"udprcv", .sint 872 8),
    (py!"udprsz", .sint 880 8),
    (py!"avail1", .sint 888 8),
    (py!"avail2", .sint 896 8)]),
  (py!"gpu", .record <| .ofList [
    (py!"state", .char 936),
    (py!"nrgpus", .sint 940 2),
    (py!"gpulist", .sint 944 4),
    (py!"gpubusy", .sint 948 4),
    (py!"membusy", .sint 952 4),
    (py!"timems", .sint 960 8),
    (py!"memnow", .sint 968 8),
    (py!"memcum", .sint 976 8),
    (py!"sample", .sint 984 8)])]

end Atop.Spec
