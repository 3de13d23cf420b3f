-- GENERATED by tools/gen_layouts.py from the text of /repo/atoparser/structs/atop_2_5.py. Do not edit.
import Verif.Spec.Node
/-!
# Byte layout of the blocks of an atop 2.5 log
-/

namespace Atop.Spec

/-- header of version 2.5: 480 bytes -/
def L2_5.header : Node := .record <| .ofList [
  (py!"magic", .uint 0 4),
  (py!"aversion", .uint 4 2),
  (py!"rawheadlen", .uint 10 2),
  (py!"rawreclen", .uint 12 2),
  (py!"hertz", .uint 14 2),
  (py!"sstatlen", .uint 28 4),
  (py!"tstatlen", .uint 32 4),
  (py!"utsname", .record <| .ofList [
    (py!"sysname", .text 36 65),
    (py!"nodename", .text 101 65),
    (py!"release", .text 166 65),
    (py!"version", .text 231 65),
    (py!"machine", .text 296 65),
    (py!"domain", .text 361 65)]),
  (py!"pagesize", .uint 436 4),
  (py!"supportflags", .sint 440 4),
  (py!"osrel", .sint 444 4),
  (py!"osvers", .sint 448 4),
  (py!"ossub", .sint 452 4)]

/-- record of version 2.5: 96 bytes -/
def L2_5.record : Node := .record <| .ofList [
  (py!"curtime", .sint 0 8),
  (py!"flags", .uint 8 2),
  (py!"scomplen", .uint 16 4),
  (py!"pcomplen", .uint 20 4),
  (py!"interval", .uint 24 4),
  (py!"ndeviat", .uint 28 4),
  (py!"nactproc", .uint 32 4),
  (py!"ntask", .uint 36 4),
  (py!"totproc", .uint 40 4),
  (py!"totrun", .uint 44 4),
  (py!"totslpi", .uint 48 4),
  (py!"totslpu", .uint 52 4),
  (py!"totzomb", .uint 56 4),
  (py!"nexit", .uint 60 4),
  (py!"noverflow", .uint 64 4)]

/-- sstat of version 2.5: 716656 bytes -/
def L2_5.sstat : Node := .record <| .ofList [
  (py!"cpu", .record <| .ofList [
    (py!"nrcpu", .sint 0 8),
    (py!"devint", .sint 8 8),
    (py!"csw", .sint 16 8),
    (py!"nprocs", .sint 24 8),
    (py!"lavg1", .float 32),
    (py!"lavg5", .float 36),
    (py!"lavg15", .float 40),
    (py!"all", .record <| .ofList [
      (py!"cpunr", .sint 80 4),
      (py!"stime", .sint 88 8),
      (py!"utime", .sint 96 8),
      (py!"ntime", .sint 104 8),
      (py!"itime", .sint 112 8),
      (py!"wtime", .sint 120 8),
      (py!"Itime", .sint 128 8),
      (py!"Stime", .sint 136 8),
      (py!"steal", .sint 144 8),
      (py!"guest", .sint 152 8),
      (py!"freqcnt", .record <| .ofList [
        (py!"maxfreq", .sint 160 8),
        (py!"cnt", .sint 168 8),
        (py!"ticks", .sint 176 8)]),
      (py!"instr", .sint 184 8),
      (py!"cycle", .sint 192 8)]),
    (py!"cpu", .list 2048 136 (some (0, 8, true)) <| .record <| .ofList [
      (py!"cpunr", .sint 216 4),
      (py!"stime", .sint 224 8),
      (py!"utime", .sint 232 8),
      (py!"ntime", .sint 240 8),
      (py!"itime", .sint 248 8),
      (py!"wtime", .sint 256 8),
      (py!"Itime", .sint 264 8),
      (py!"Stime", .sint 272 8),
      (py!"steal", .sint 280 8),
      (py!"guest", .sint 288 8),
      (py!"freqcnt", .record <| .ofList [
        (py!"maxfreq", .sint 296 8),
        (py!"cnt", .sint 304 8),
        (py!"ticks", .sint 312 8)]),
      (py!"instr", .sint 320 8),
      (py!"cycle", .sint 328 8)])]),
  (py!"mem", .record <| .ofList [
    (py!"physmem", .sint 278744 8),
    (py!"freemem", .sint 278752 8),
    (py!"buffermem", .sint 278760 8),
    (py!"slabmem", .sint 278768 8),
    (py!"cachemem", .sint 278776 8),
    (py!"cachedrt", .sint 278784 8),
    (py!"totswap", .sint 278792 8),
    (py!"freeswap", .sint 278800 8),
    (py!"pgscans", .sint 278808 8),
    (py!"pgsteal", .sint 278816 8),
    (py!"allocstall", .sint 278824 8),
    (py!"swouts", .sint 278832 8),
    (py!"swins", .sint 278840 8),
    (py!"commitlim", .sint 278848 8),
    (py!"committed", .sint 278856 8),
    (py!"shmem", .sint 278864 8),
    (py!"shmrss", .sint 278872 8),
    (py!"shmswp", .sint 278880 8),
    (py!"slabreclaim", .sint 278888 8),
    (py!"tothugepage", .sint 278896 8),
    (py!"freehugepage", .sint 278904 8),
    (py!"hugepagesz", .sint 278912 8),
    (py!"vmwballoon", .sint 278920 8)]),
  (py!"net", .record <| .ofList [
    (py!"ipv4", .record <| .ofList [
      (py!"Forwarding", .sint 278992 8),
      (py!"DefaultTTL", .sint 279000 8),
      (py!"InReceives", .sint 279008 8),
      (py!"InHdrErrors", .sint 279016 8),
      (py!"InAddrErrors", .sint 279024 8),
      (py!"ForwDatagrams", .sint 279032 8),
      (py!"InUnknownProtos", .sint 279040 8),
      (py!"InDiscards", .sint 279048 8),
      (py!"InDelivers", .sint 279056 8),
      (py!"OutRequests", .sint 279064 8),
      (py!"OutDiscards", .sint 279072 8),
      (py!"OutNoRoutes", .sint 279080 8),
      (py!"ReasmTimeout", .sint 279088 8),
      (py!"ReasmReqds", .sint 279096 8),
      (py!"ReasmOKs", .sint 279104 8),
      (py!"ReasmFails", .sint 279112 8),
      (py!"FragOKs", .sint 279120 8),
      (py!"FragFails", .sint 279128 8),
      (py!"FragCreates", .sint 279136 8)]),
    (py!"icmpv4", .record <| .ofList [
      (py!"InMsgs", .sint 279144 8),
      (py!"InErrors", .sint 279152 8),
      (py!"InDestUnreachs", .sint 279160 8),
      (py!"InTimeExcds", .sint 279168 8),
      (py!"InParmProbs", .sint 279176 8),
      (py!"InSrcQuenchs", .sint 279184 8),
      (py!"InRedirects", .sint 279192 8),
      (py!"InEchos", .sint 279200 8),
      (py!"InEchoReps", .sint 279208 8),
      (py!"InTimestamps", .sint 279216 8),
      (py!"InTimestampReps", .sint 279224 8),
      (py!"InAddrMasks", .sint 279232 8),
      (py!"InAddrMaskReps", .sint 279240 8),
      (py!"OutMsgs", .sint 279248 8),
      (py!"OutErrors", .sint 279256 8),
      (py!"OutDestUnreachs", .sint 279264 8),
      (py!"OutTimeExcds", .sint 279272 8),
      (py!"OutParmProbs", .sint 279280 8),
      (py!"OutSrcQuenchs", .sint 279288 8),
      (py!"OutRedirects", .sint 279296 8),
      (py!"OutEchos", .sint 279304 8),
      (py!"OutEchoReps", .sint 279312 8),
      (py!"OutTimestamps", .sint 279320 8),
      (py!"OutTimestampReps", .sint 279328 8),
      (py!"OutAddrMasks", .sint 279336 8),
      (py!"OutAddrMaskReps", .sint 279344 8)]),
    (py!"udpv4", .record <| .ofList [
      (py!"InDatagrams", .sint 279352 8),
      (py!"NoPorts", .sint 279360 8),
      (py!"InErrors", .sint 279368 8),
      (py!"OutDatagrams", .sint 279376 8)]),
    (py!"ipv6", .record <| .ofList [
      (py!"Ip6InReceives", .sint 279384 8),
      (py!"Ip6InHdrErrors", .sint 279392 8),
      (py!"Ip6InTooBigErrors", .sint 279400 8),
      (py!"Ip6InNoRoutes", .sint 279408 8),
      (py!"Ip6InAddrErrors", .sint 279416 8),
      (py!"Ip6InUnknownProtos", .sint 279424 8),
      (py!"Ip6InTruncatedPkts", .sint 279432 8),
      (py!"Ip6InDiscards", .sint 279440 8),
      (py!"Ip6InDelivers", .sint 279448 8),
      (py!"Ip6OutForwDatagrams", .sint 279456 8),
      (py!"Ip6OutRequests", .sint 279464 8),
      (py!"Ip6OutDiscards", .sint 279472 8),
      (py!"Ip6OutNoRoutes", .sint 279480 8),
      (py!"Ip6ReasmTimeout", .sint 279488 8),
      (py!"Ip6ReasmReqds", .sint 279496 8),
      (py!"Ip6ReasmOKs", .sint 279504 8),
      (py!"Ip6ReasmFails", .sint 279512 8),
      (py!"Ip6FragOKs", .sint 279520 8),
      (py!"Ip6FragFails", .sint 279528 8),
      (py!"Ip6FragCreates", .sint 279536 8),
      (py!"Ip6InMcastPkts", .sint 279544 8),
      (py!"Ip6OutMcastPkts", .sint 279552 8)]),
    (py!"icmpv6", .record <| .ofList [
      (py!"Icmp6InMsgs", .sint 279560 8),
      (py!"Icmp6InErrors", .sint 279568 8),
      (py!"Icmp6InDestUnreachs", .sint 279576 8),
      (py!"Icmp6InPktTooBigs", .sint 279584 8),
      (py!"Icmp6InTimeExcds", .sint 279592 8),
      (py!"Icmp6InParmProblems", .sint 279600 8),
      (py!"Icmp6InEchos", .sint 279608 8),
      (py!"Icmp6InEchoReplies", .sint 279616 8),
      (py!"Icmp6InGroupMembQueries", .sint 279624 8),
      (py!"Icmp6InGroupMembResponses", .sint 279632 8),
      (py!"Icmp6InGroupMembReductions", .sint 279640 8),
      (py!"Icmp6InRouterSolicits", .sint 279648 8),
      (py!"Icmp6InRouterAdvertisements", .sint 279656 8),
      (py!"Icmp6InNeighborSolicits", .sint 279664 8),
      (py!"Icmp6InNeighborAdvertisements", .sint 279672 8),
      (py!"Icmp6InRedirects", .sint 279680 8),
      (py!"Icmp6OutMsgs", .sint 279688 8),
      (py!"Icmp6OutDestUnreachs", .sint 279696 8),
      (py!"Icmp6OutPktTooBigs", .sint 279704 8),
      (py!"Icmp6OutTimeExcds", .sint 279712 8),
      (py!"Icmp6OutParmProblems", .sint 279720 8),
      (py!"Icmp6OutEchoReplies", .sint 279728 8),
      (py!"Icmp6OutRouterSolicits", .sint 279736 8),
      (py!"Icmp6OutNeighborSolicits", .sint 279744 8),
      (py!"Icmp6OutNeighborAdvertisements", .sint 279752 8),
      (py!"Icmp6OutRedirects", .sint 279760 8),
      (py!"Icmp6OutGroupMembResponses", .sint 279768 8),
      (py!"Icmp6OutGroupMembReductions", .sint 279776 8)]),
    (py!"udpv6", .record <| .ofList [
      (py!"Udp6InDatagrams", .sint 279784 8),
      (py!"Udp6NoPorts", .sint 279792 8),
      (py!"Udp6InErrors", .sint 279800 8),
      (py!"Udp6OutDatagrams", .sint 279808 8)]),
    (py!"tcp", .record <| .ofList [
      (py!"RtoAlgorithm", .sint 279816 8),
      (py!"RtoMin", .sint 279824 8),
      (py!"RtoMax", .sint 279832 8),
      (py!"MaxConn", .sint 279840 8),
      (py!"ActiveOpens", .sint 279848 8),
      (py!"PassiveOpens", .sint 279856 8),
      (py!"AttemptFails", .sint 279864 8),
      (py!"EstabResets", .sint 279872 8),
      (py!"CurrEstab", .sint 279880 8),
      (py!"InSegs", .sint 279888 8),
      (py!"OutSegs", .sint 279896 8),
      (py!"RetransSegs", .sint 279904 8),
      (py!"InErrs", .sint 279912 8),
      (py!"OutRsts", .sint 279920 8)])]),
  (py!"intf", .record <| .ofList [
    (py!"nrintf", .sint 279928 4),
    (py!"intf", .list 128 272 (some (279928, 4, true)) <| .record <| .ofList [
      (py!"name", .text 279936 16),
      (py!"rbyte", .sint 279952 8),
      (py!"rpack", .sint 279960 8),
      (py!"rerrs", .sint 279968 8),
      (py!"rdrop", .sint 279976 8),
      (py!"rfifo", .sint 279984 8),
      (py!"rframe", .sint 279992 8),
      (py!"rcompr", .sint 280000 8),
      (py!"rmultic", .sint 280008 8),
      (py!"sbyte", .sint 280048 8),
      (py!"spack", .sint 280056 8),
      (py!"serrs", .sint 280064 8),
      (py!"sdrop", .sint 280072 8),
      (py!"sfifo", .sint 280080 8),
      (py!"scollis", .sint 280088 8),
      (py!"scarrier", .sint 280096 8),
      (py!"scompr", .sint 280104 8),
      (py!"type", .char 280144),
      (py!"speed", .sint 280152 8),
      (py!"speedp", .sint 280160 8),
      (py!"duplex", .char 280168)])]),
  (py!"dsk", .record <| .ofList [
    (py!"ndsk", .sint 314752 4),
    (py!"nmdd", .sint 314756 4),
    (py!"nlvm", .sint 314760 4),
    (py!"dsk", .list 1024 112 (some (314752, 4, true)) <| .record <| .ofList [
      (py!"name", .text 314768 32),
      (py!"nread", .sint 314800 8),
      (py!"nrsect", .sint 314808 8),
      (py!"nwrite", .sint 314816 8),
      (py!"nwsect", .sint 314824 8),
      (py!"io_ms", .sint 314832 8),
      (py!"avque", .sint 314840 8)]),
    (py!"mdd", .list 256 112 (some (314756, 4, true)) <| .record <| .ofList [
      (py!"name", .text 429456 32),
      (py!"nread", .sint 429488 8),
      (py!"nrsect", .sint 429496 8),
      (py!"nwrite", .sint 429504 8),
      (py!"nwsect", .sint 429512 8),
      (py!"io_ms", .sint 429520 8),
      (py!"avque", .sint 429528 8)]),
    (py!"lvm", .list 2048 112 (some (314760, 4, true)) <| .record <| .ofList [
      (py!"name", .text 458128 32),
      (py!"nread", .sint 458160 8),
      (py!"nrsect", .sint 458168 8),
      (py!"nwrite", .sint 458176 8),
      (py!"nwsect", .sint 458184 8),
      (py!"io_ms", .sint 458192 8),
      (py!"avque", .sint 458200 8)])]),
  (py!"nfs", .record <| .ofList [
    (py!"server", .record <| .ofList [
      (py!"netcnt", .sint 687504 8),
      (py!"netudpcnt", .sint 687512 8),
      (py!"nettcpcnt", .sint 687520 8),
      (py!"nettcpcon", .sint 687528 8),
      (py!"rpccnt", .sint 687536 8),
      (py!"rpcbadfmt", .sint 687544 8),
      (py!"rpcbadaut", .sint 687552 8),
      (py!"rpcbadcln", .sint 687560 8),
      (py!"rpcread", .sint 687568 8),
      (py!"rpcwrite", .sint 687576 8),
      (py!"rchits", .sint 687584 8),
      (py!"rcmiss", .sint 687592 8),
      (py!"rcnoca", .sint 687600 8),
      (py!"nrbytes", .sint 687608 8),
      (py!"nwbytes", .sint 687616 8)]),
    (py!"client", .record <| .ofList [
      (py!"rpccnt", .sint 687688 8),
      (py!"rpcretrans", .sint 687696 8),
      (py!"rpcautrefresh", .sint 687704 8),
      (py!"rpcread", .sint 687712 8),
      (py!"rpcwrite", .sint 687720 8)]),
    (py!"nfsmounts", .record <| .ofList [
      (py!"nrmounts", .sint 687792 4),
      (py!"nfsmnt", .list 64 264 (some (687792, 4, true)) <| .record <| .ofList [
        (py!"mountdev", .text 687800 128),
        (py!"age", .sint 687928 8),
        (py!"bytesread", .sint 687936 8),
        (py!"byteswrite", .sint 687944 8),
        (py!"bytesdread", .sint 687952 8),
        (py!"bytesdwrite", .sint 687960 8),
        (py!"bytestotread", .sint 687968 8),
        (py!"bytestotwrite", .sint 687976 8),
        (py!"pagesmread", .sint 687984 8),
        (py!"pagesmwrite", .sint 687992 8)])])]),
  (py!"cfs", .record <| .ofList [
    (py!"nrcontainer", .sint 704696 4),
    (py!"cont", .list 128 56 (some (704696, 4, true)) <| .record <| .ofList [
      (py!"ctid", .uint 704704 8),
      (py!"numproc", .uint 704712 8),
      (py!"system", .sint 704720 8),
      (py!"user", .sint 704728 8),
      (py!"nice", .sint 704736 8),
      (py!"uptime", .sint 704744 8),
      (py!"physpages", .sint 704752 8)])]),
  (py!"psi", .record <| .ofList [
    (py!"present", .char 711872),
    (py!"cpusome", .record <| .ofList [
      (py!"avg10", .float 711880),
      (py!"avg60", .float 711884),
      (py!"avg300", .float 711888),
      (py!"total", .sint 711896 8)]),
    (py!"memsome", .record <| .ofList [
      (py!"avg10", .float 711904),
      (py!"avg60", .float 711908),
      (py!"avg300", .float 711912),
      (py!"total", .sint 711920 8)]),
    (py!"memfull", .record <| .ofList [
      (py!"avg10", .float 711928),
      (py!"avg60", .float 711932),
      (py!"avg300", .float 711936),
      (py!"total", .sint 711944 8)]),
    (py!"iosome", .record <| .ofList [
      (py!"avg10", .float 711952),
      (py!"avg60", .float 711956),
      (py!"avg300", .float 711960),
      (py!"total", .sint 711968 8)]),
    (py!"iofull", .record <| .ofList [
      (py!"avg10", .float 711976),
      (py!"avg60", .float 711980),
      (py!"avg300", .float 711984),
      (py!"total", .sint 711992 8)])]),
  (py!"gpu", .record <| .ofList [
    (py!"nrgpus", .sint 712000 4),
    (py!"gpu", .list 32 88 (some (712000, 4, true)) <| .record <| .ofList [
      (py!"taskstats", .char 712008),
      (py!"nrprocs", .uint 712009 1),
      (py!"type", .text 712010 13),
      (py!"busid", .text 712023 13),
      (py!"gpunr", .sint 712036 4),
      (py!"gpupercnow", .sint 712040 4),
      (py!"mempercnow", .sint 712044 4),
      (py!"memtotnow", .sint 712048 8),
      (py!"memusenow", .sint 712056 8),
      (py!"samples", .sint 712064 8),
      (py!"gpuperccum", .sint 712072 8),
      (py!"memperccum", .sint 712080 8),
      (py!"memusecum", .sint 712088 8)])]),
  (py!"ifb", .record <| .ofList [
    (py!"nrports", .sint 714824 4),
    (py!"ifb", .list 32 56 (some (714824, 4, true)) <| .record <| .ofList [
      (py!"ibname", .text 714832 12),
      (py!"portnr", .sint 714844 2),
      (py!"lanes", .sint 714846 2),
      (py!"rate", .sint 714848 8),
      (py!"rcvb", .sint 714856 8),
      (py!"sndb", .sint 714864 8),
      (py!"rcvp", .sint 714872 8),
      (py!"sndp", .sint 714880 8)])]),
  (py!"www", .record <| .ofList [
    (py!"accesses", .sint 716624 8),
    (py!"totkbytes", .sint 716632 8),
    (py!"uptime", .sint 716640 8),
    (py!"bworkers", .sint 716648 4),
    (py!"iworkers", .sint 716652 4)])]

/-- tstat of version 2.5: 840 bytes -/
def L2_5.tstat : Node := .record <| .ofList [
  (py!"gen", .record <| .ofList [
    (py!"tgid", .sint 0 4),
    (py!"pid", .sint 4 4),
    (py!"ppid", .sint 8 4),
    (py!"ruid", .sint 12 4),
    (py!"euid", .sint 16 4),
    (py!"suid", .sint 20 4),
    (py!"fsuid", .sint 24 4),
    (py!"rgid", .sint 28 4),
    (py!"egid", .sint 32 4),
    (py!"sgid", .sint 36 4),
    (py!"fsgid", .sint 40 4),
    (py!"nthr", .sint 44 4),
    (py!"name", .text 48 16),
    (py!"isproc", .char 64),
    (py!"state", .char 65),
    (py!"excode", .sint 68 4),
    (py!"btime", .sint 72 8),
    (py!"elaps", .sint 80 8),
    (py!"cmdline", .text 88 256),
    (py!"nthrslpi", .sint 344 4),
    (py!"nthrslpu", .sint 348 4),
    (py!"nthrrun", .sint 352 4),
    (py!"ctid", .sint 356 4),
    (py!"vpid", .sint 360 4),
    (py!"wasinactive", .sint 364 4),
    (py!"container", .text 368 16)]),
  (py!"cpu", .record <| .ofList [
    (py!"utime", .sint 384 8),
    (py!"stime", .sint 392 8),
    (py!"nice", .sint 400 4),
    (py!"prio", .sint 404 4),
    (py!"rtprio", .sint 408 4),
    (py!"policy", .sint 412 4),
    (py!"curcpu", .sint 416 4),
    (py!"sleepavg", .sint 420 4)]),
  (py!"dsk", .record <| .ofList [
    (py!"rio", .sint 472 8),
    (py!"rsz", .sint 480 8),
    (py!"wio", .sint 488 8),
    (py!"wsz", .sint 496 8),
    (py!"cwsz", .sint 504 8)]),
  (py!"mem", .record <| .ofList [
    (py!"minflt", .sint 544 8),
    (py!"majflt", .sint 552 8),
    (py!"vexec", .sint 560 8),
    (py!"vmem", .sint 568 8),
    (py!"rmem", .sint 576 8),
    (py!"pmem", .sint 584 8),
    (py!"vgrow", .sint 592 8),
    (py!"rgrow", .sint 600 8),
    (py!"vdata", .sint 608 8),
    (py!"vstack", .sint 616 8),
    (py!"vlibs", .sint 624 8),
    (py!"vswap", .sint 632 8)]),
  (py!"net", .record <| .ofList [
    (py!"tcpsnd", .sint 672 8),
    (py!"tcpssz", .sint 680 8),
    (py!"tcprcv", .sint 688 8),
    (py!"tcprsz", .sint 696 8),
    (py!"udpsnd", .sint 704 8),
    (py!"udpssz", .sint 712 8),
    (py!"udprcv", .sint 720 8),
    (py!"udprsz", .sint 728 8),
    (py!"avail1", .sint 736 8),
    (py!"avail2", .sint 744 8)]),
  (py!"gpu", .record <| .ofList [
    (py!"state", .char 784),
    (py!"nrgpus", .sint 788 2),
    (py!"gpulist", .sint 792 4),
    (py!"gpubusy", .sint 796 4),
    (py!"membusy", .sint 800 4),
    (py!"timems", .sint 808 8),
    (py!"memnow", .sint 816 8),
    (py!"memcum", .sint 824 8),
    (py!"sample", .sint 832 8)])]

end Atop.Spec
