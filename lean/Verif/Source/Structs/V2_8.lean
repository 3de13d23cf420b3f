import Verif.Source.Syntax
/-!
# The source text of atoparser/structs/atop_2_8.py, as syntax trees

Generated by tools/gen_source.py --structs; do not edit.
-/

set_option maxRecDepth 4000

namespace Atop.Src.Text.V2_8

/-- atoparser/structs/atop_2_8.py:63-94 -/
def Record : TopDecl := .class py!"Record" [(.attr (.glob py!"ctypes") py!"Structure")] [
  .assign py!"_fields_" (.list exprs![
    (.tuple exprs![(.const (.str py!"curtime")), (.glob py!"time_t")]),
    (.tuple exprs![(.const (.str py!"flags")), (.attr (.glob py!"ctypes") py!"c_ushort")]),
    (.tuple exprs![(.const (.str py!"ncgroups")), (.attr (.glob py!"ctypes") py!"c_ushort")]),
    (.tuple exprs![(.const (.str py!"sfuture")), (.bin .mul (.attr (.glob py!"ctypes") py!"c_ushort") (.const (.int 2)))]),
    (.tuple exprs![(.const (.str py!"scomplen")), (.attr (.glob py!"ctypes") py!"c_uint")]),
    (.tuple exprs![(.const (.str py!"pcomplen")), (.attr (.glob py!"ctypes") py!"c_uint")]),
    (.tuple exprs![(.const (.str py!"interval")), (.attr (.glob py!"ctypes") py!"c_uint")]),
    (.tuple exprs![(.const (.str py!"ndeviat")), (.attr (.glob py!"ctypes") py!"c_uint")]),
    (.tuple exprs![(.const (.str py!"nactproc")), (.attr (.glob py!"ctypes") py!"c_uint")]),
    (.tuple exprs![(.const (.str py!"ntask")), (.attr (.glob py!"ctypes") py!"c_uint")]),
    (.tuple exprs![(.const (.str py!"totproc")), (.attr (.glob py!"ctypes") py!"c_uint")]),
    (.tuple exprs![(.const (.str py!"totrun")), (.attr (.glob py!"ctypes") py!"c_uint")]),
    (.tuple exprs![(.const (.str py!"totslpi")), (.attr (.glob py!"ctypes") py!"c_uint")]),
    (.tuple exprs![(.const (.str py!"totslpu")), (.attr (.glob py!"ctypes") py!"c_uint")]),
    (.tuple exprs![(.const (.str py!"totzomb")), (.attr (.glob py!"ctypes") py!"c_uint")]),
    (.tuple exprs![(.const (.str py!"nexit")), (.attr (.glob py!"ctypes") py!"c_uint")]),
    (.tuple exprs![(.const (.str py!"noverflow")), (.attr (.glob py!"ctypes") py!"c_uint")]),
    (.tuple exprs![(.const (.str py!"totidle")), (.attr (.glob py!"ctypes") py!"c_uint")]),
    (.tuple exprs![(.const (.str py!"ccomplen")), (.attr (.glob py!"ctypes") py!"c_uint")]),
    (.tuple exprs![(.const (.str py!"coriglen")), (.attr (.glob py!"ctypes") py!"c_uint")]),
    (.tuple exprs![(.const (.str py!"ncgpids")), (.attr (.glob py!"ctypes") py!"c_uint")]),
    (.tuple exprs![(.const (.str py!"icomplen")), (.attr (.glob py!"ctypes") py!"c_uint")]),
    (.tuple exprs![(.const (.str py!"ifuture")), (.attr (.glob py!"ctypes") py!"c_uint")])])]

/-- atoparser/structs/atop_2_8.py:97-145 -/
def MemStat : TopDecl := .class py!"MemStat" [(.attr (.glob py!"ctypes") py!"Structure")] [
  .assign py!"_fields_" (.list exprs![
    (.tuple exprs![(.const (.str py!"physmem")), (.glob py!"count_t")]),
    (.tuple exprs![(.const (.str py!"freemem")), (.glob py!"count_t")]),
    (.tuple exprs![(.const (.str py!"buffermem")), (.glob py!"count_t")]),
    (.tuple exprs![(.const (.str py!"slabmem")), (.glob py!"count_t")]),
    (.tuple exprs![(.const (.str py!"cachemem")), (.glob py!"count_t")]),
    (.tuple exprs![(.const (.str py!"cachedrt")), (.glob py!"count_t")]),
    (.tuple exprs![(.const (.str py!"totswap")), (.glob py!"count_t")]),
    (.tuple exprs![(.const (.str py!"freeswap")), (.glob py!"count_t")]),
    (.tuple exprs![(.const (.str py!"pgscans")), (.glob py!"count_t")]),
    (.tuple exprs![(.const (.str py!"pgsteal")), (.glob py!"count_t")]),
    (.tuple exprs![(.const (.str py!"allocstall")), (.glob py!"count_t")]),
    (.tuple exprs![(.const (.str py!"swouts")), (.glob py!"count_t")]),
    (.tuple exprs![(.const (.str py!"swins")), (.glob py!"count_t")]),
    (.tuple exprs![(.const (.str py!"tcpsock")), (.glob py!"count_t")]),
    (.tuple exprs![(.const (.str py!"udpsock")), (.glob py!"count_t")]),
    (.tuple exprs![(.const (.str py!"commitlim")), (.glob py!"count_t")]),
    (.tuple exprs![(.const (.str py!"committed")), (.glob py!"count_t")]),
    (.tuple exprs![(.const (.str py!"shmem")), (.glob py!"count_t")]),
    (.tuple exprs![(.const (.str py!"shmrss")), (.glob py!"count_t")]),
    (.tuple exprs![(.const (.str py!"shmswp")), (.glob py!"count_t")]),
    (.tuple exprs![(.const (.str py!"slabreclaim")), (.glob py!"count_t")]),
    (.tuple exprs![(.const (.str py!"tothugepage")), (.glob py!"count_t")]),
    (.tuple exprs![(.const (.str py!"freehugepage")), (.glob py!"count_t")]),
    (.tuple exprs![(.const (.str py!"hugepagesz")), (.glob py!"count_t")]),
    (.tuple exprs![(.const (.str py!"vmwballoon")), (.glob py!"count_t")]),
    (.tuple exprs![(.const (.str py!"zfsarcsize")), (.glob py!"count_t")]),
    (.tuple exprs![(.const (.str py!"swapcached")), (.glob py!"count_t")]),
    (.tuple exprs![(.const (.str py!"ksmsharing")), (.glob py!"count_t")]),
    (.tuple exprs![(.const (.str py!"ksmshared")), (.glob py!"count_t")]),
    (.tuple exprs![(.const (.str py!"zswstored")), (.glob py!"count_t")]),
    (.tuple exprs![(.const (.str py!"zswtotpool")), (.glob py!"count_t")]),
    (.tuple exprs![(.const (.str py!"oomkills")), (.glob py!"count_t")]),
    (.tuple exprs![(.const (.str py!"compactstall")), (.glob py!"count_t")]),
    (.tuple exprs![(.const (.str py!"pgmigrate")), (.glob py!"count_t")]),
    (.tuple exprs![(.const (.str py!"numamigrate")), (.glob py!"count_t")]),
    (.tuple exprs![(.const (.str py!"pgouts")), (.glob py!"count_t")]),
    (.tuple exprs![(.const (.str py!"pgins")), (.glob py!"count_t")]),
    (.tuple exprs![(.const (.str py!"pagetables")), (.glob py!"count_t")]),
    (.tuple exprs![(.const (.str py!"cfuture")), (.bin .mul (.glob py!"count_t") (.const (.int 4)))])])]

/-- atoparser/structs/atop_2_8.py:148-169 -/
def MemPerNUMA : TopDecl := .class py!"MemPerNUMA" [(.attr (.glob py!"ctypes") py!"Structure")] [
  .assign py!"_fields_" (.list exprs![
    (.tuple exprs![(.const (.str py!"numanr")), (.attr (.glob py!"ctypes") py!"c_int")]),
    (.tuple exprs![(.const (.str py!"frag")), (.attr (.glob py!"ctypes") py!"c_float")]),
    (.tuple exprs![(.const (.str py!"totmem")), (.glob py!"count_t")]),
    (.tuple exprs![(.const (.str py!"freemem")), (.glob py!"count_t")]),
    (.tuple exprs![(.const (.str py!"filepage")), (.glob py!"count_t")]),
    (.tuple exprs![(.const (.str py!"dirtymem")), (.glob py!"count_t")]),
    (.tuple exprs![(.const (.str py!"slabmem")), (.glob py!"count_t")]),
    (.tuple exprs![(.const (.str py!"slabreclaim")), (.glob py!"count_t")]),
    (.tuple exprs![(.const (.str py!"active")), (.glob py!"count_t")]),
    (.tuple exprs![(.const (.str py!"inactive")), (.glob py!"count_t")]),
    (.tuple exprs![(.const (.str py!"shmem")), (.glob py!"count_t")]),
    (.tuple exprs![(.const (.str py!"tothp")), (.glob py!"count_t")])])]

/-- atoparser/structs/atop_2_8.py:172-184 -/
def MemNUMA : TopDecl := .class py!"MemNUMA" [(.attr (.glob py!"ctypes") py!"Structure")] [
  .assign py!"_fields_" (.list exprs![
    (.tuple exprs![(.const (.str py!"nrnuma")), (.glob py!"count_t")]),
    (.tuple exprs![(.const (.str py!"numa")), (.bin .mul (.glob py!"MemPerNUMA") (.glob py!"MAXNUMA"))])]),
  .assign py!"fields_limiters" (.dict (.cons (.const (.str py!"numa")) (.const (.str py!"nrnuma")) <| .nil))]

/-- atoparser/structs/atop_2_8.py:187-207 -/
def CPUPerNUMA : TopDecl := .class py!"CPUPerNUMA" [(.attr (.glob py!"ctypes") py!"Structure")] [
  .assign py!"_fields_" (.list exprs![
    (.tuple exprs![(.const (.str py!"numanr")), (.attr (.glob py!"ctypes") py!"c_int")]),
    (.tuple exprs![(.const (.str py!"nrcpu")), (.glob py!"count_t")]),
    (.tuple exprs![(.const (.str py!"stime")), (.glob py!"count_t")]),
    (.tuple exprs![(.const (.str py!"utime")), (.glob py!"count_t")]),
    (.tuple exprs![(.const (.str py!"ntime")), (.glob py!"count_t")]),
    (.tuple exprs![(.const (.str py!"itime")), (.glob py!"count_t")]),
    (.tuple exprs![(.const (.str py!"wtime")), (.glob py!"count_t")]),
    (.tuple exprs![(.const (.str py!"Itime")), (.glob py!"count_t")]),
    (.tuple exprs![(.const (.str py!"Stime")), (.glob py!"count_t")]),
    (.tuple exprs![(.const (.str py!"steal")), (.glob py!"count_t")]),
    (.tuple exprs![(.const (.str py!"guest")), (.glob py!"count_t")])])]

/-- atoparser/structs/atop_2_8.py:210-222 -/
def CPUNUMA : TopDecl := .class py!"CPUNUMA" [(.attr (.glob py!"ctypes") py!"Structure")] [
  .assign py!"_fields_" (.list exprs![
    (.tuple exprs![(.const (.str py!"nrnuma")), (.glob py!"count_t")]),
    (.tuple exprs![(.const (.str py!"numa")), (.bin .mul (.glob py!"CPUPerNUMA") (.glob py!"MAXNUMA"))])]),
  .assign py!"fields_limiters" (.dict (.cons (.const (.str py!"numa")) (.const (.str py!"nrnuma")) <| .nil))]

/-- atoparser/structs/atop_2_8.py:234-254 -/
def PerDSK : TopDecl := .class py!"PerDSK" [(.attr (.glob py!"ctypes") py!"Structure")] [
  .assign py!"_fields_" (.list exprs![
    (.tuple exprs![(.const (.str py!"name")), (.bin .mul (.attr (.glob py!"ctypes") py!"c_char") (.glob py!"MAXDKNAM"))]),
    (.tuple exprs![(.const (.str py!"nread")), (.glob py!"count_t")]),
    (.tuple exprs![(.const (.str py!"nrsect")), (.glob py!"count_t")]),
    (.tuple exprs![(.const (.str py!"nwrite")), (.glob py!"count_t")]),
    (.tuple exprs![(.const (.str py!"nwsect")), (.glob py!"count_t")]),
    (.tuple exprs![(.const (.str py!"io_ms")), (.glob py!"count_t")]),
    (.tuple exprs![(.const (.str py!"avque")), (.glob py!"count_t")]),
    (.tuple exprs![(.const (.str py!"ndisc")), (.glob py!"count_t")]),
    (.tuple exprs![(.const (.str py!"ndsect")), (.glob py!"count_t")]),
    (.tuple exprs![(.const (.str py!"inflight")), (.glob py!"count_t")]),
    (.tuple exprs![(.const (.str py!"cfuture")), (.bin .mul (.glob py!"count_t") (.const (.int 3)))])])]

/-- atoparser/structs/atop_2_8.py:257-277 -/
def DSKStat : TopDecl := .class py!"DSKStat" [(.attr (.glob py!"ctypes") py!"Structure")] [
  .assign py!"_fields_" (.list exprs![
    (.tuple exprs![(.const (.str py!"ndsk")), (.attr (.glob py!"ctypes") py!"c_int")]),
    (.tuple exprs![(.const (.str py!"nmdd")), (.attr (.glob py!"ctypes") py!"c_int")]),
    (.tuple exprs![(.const (.str py!"nlvm")), (.attr (.glob py!"ctypes") py!"c_int")]),
    (.tuple exprs![(.const (.str py!"dsk")), (.bin .mul (.glob py!"PerDSK") (.glob py!"MAXDSK"))]),
    (.tuple exprs![(.const (.str py!"mdd")), (.bin .mul (.glob py!"PerDSK") (.glob py!"MAXMDD"))]),
    (.tuple exprs![(.const (.str py!"lvm")), (.bin .mul (.glob py!"PerDSK") (.glob py!"MAXLVM"))])]),
  .assign py!"fields_limiters" (.dict (.cons (.const (.str py!"dsk")) (.const (.str py!"ndsk")) <| .cons (.const (.str py!"mdd")) (.const (.str py!"nmdd")) <| .cons (.const (.str py!"lvm")) (.const (.str py!"nlvm")) <| .nil))]

/-- atoparser/structs/atop_2_8.py:328-341 -/
def PerLLC : TopDecl := .class py!"PerLLC" [(.attr (.glob py!"ctypes") py!"Structure")] [
  .assign py!"_fields_" (.list exprs![
    (.tuple exprs![(.const (.str py!"id")), (.attr (.glob py!"ctypes") py!"c_uint8")]),
    (.tuple exprs![(.const (.str py!"occupancy")), (.attr (.glob py!"ctypes") py!"c_float")]),
    (.tuple exprs![(.const (.str py!"mbm_local")), (.glob py!"count_t")]),
    (.tuple exprs![(.const (.str py!"mbm_total")), (.glob py!"count_t")])])]

/-- atoparser/structs/atop_2_8.py:344-356 -/
def LLCStat : TopDecl := .class py!"LLCStat" [(.attr (.glob py!"ctypes") py!"Structure")] [
  .assign py!"_fields_" (.list exprs![
    (.tuple exprs![(.const (.str py!"nrllcs")), (.attr (.glob py!"ctypes") py!"c_int")]),
    (.tuple exprs![(.const (.str py!"perllc")), (.bin .mul (.glob py!"PerLLC") (.glob py!"MAXLLC"))])]),
  .assign py!"fields_limiters" (.dict (.cons (.const (.str py!"perllc")) (.const (.str py!"nrllcs")) <| .nil))]

/-- atoparser/structs/atop_2_8.py:362-398 -/
def ICMPv4Stats : TopDecl := .class py!"ICMPv4Stats" [(.attr (.glob py!"ctypes") py!"Structure")] [
  .assign py!"_fields_" (.list exprs![
    (.tuple exprs![(.const (.str py!"InMsgs")), (.glob py!"count_t")]),
    (.tuple exprs![(.const (.str py!"InErrors")), (.glob py!"count_t")]),
    (.tuple exprs![(.const (.str py!"InCsumErrors")), (.glob py!"count_t")]),
    (.tuple exprs![(.const (.str py!"InDestUnreachs")), (.glob py!"count_t")]),
    (.tuple exprs![(.const (.str py!"InTimeExcds")), (.glob py!"count_t")]),
    (.tuple exprs![(.const (.str py!"InParmProbs")), (.glob py!"count_t")]),
    (.tuple exprs![(.const (.str py!"InSrcQuenchs")), (.glob py!"count_t")]),
    (.tuple exprs![(.const (.str py!"InRedirects")), (.glob py!"count_t")]),
    (.tuple exprs![(.const (.str py!"InEchos")), (.glob py!"count_t")]),
    (.tuple exprs![(.const (.str py!"InEchoReps")), (.glob py!"count_t")]),
    (.tuple exprs![(.const (.str py!"InTimestamps")), (.glob py!"count_t")]),
    (.tuple exprs![(.const (.str py!"InTimestampReps")), (.glob py!"count_t")]),
    (.tuple exprs![(.const (.str py!"InAddrMasks")), (.glob py!"count_t")]),
    (.tuple exprs![(.const (.str py!"InAddrMaskReps")), (.glob py!"count_t")]),
    (.tuple exprs![(.const (.str py!"OutMsgs")), (.glob py!"count_t")]),
    (.tuple exprs![(.const (.str py!"OutErrors")), (.glob py!"count_t")]),
    (.tuple exprs![(.const (.str py!"OutDestUnreachs")), (.glob py!"count_t")]),
    (.tuple exprs![(.const (.str py!"OutTimeExcds")), (.glob py!"count_t")]),
    (.tuple exprs![(.const (.str py!"OutParmProbs")), (.glob py!"count_t")]),
    (.tuple exprs![(.const (.str py!"OutSrcQuenchs")), (.glob py!"count_t")]),
    (.tuple exprs![(.const (.str py!"OutRedirects")), (.glob py!"count_t")]),
    (.tuple exprs![(.const (.str py!"OutEchos")), (.glob py!"count_t")]),
    (.tuple exprs![(.const (.str py!"OutEchoReps")), (.glob py!"count_t")]),
    (.tuple exprs![(.const (.str py!"OutTimestamps")), (.glob py!"count_t")]),
    (.tuple exprs![(.const (.str py!"OutTimestampReps")), (.glob py!"count_t")]),
    (.tuple exprs![(.const (.str py!"OutAddrMasks")), (.glob py!"count_t")]),
    (.tuple exprs![(.const (.str py!"OutAddrMaskReps")), (.glob py!"count_t")])])]

/-- atoparser/structs/atop_2_8.py:416-432 -/
def NETStat : TopDecl := .class py!"NETStat" [(.attr (.glob py!"ctypes") py!"Structure")] [
  .assign py!"_fields_" (.list exprs![
    (.tuple exprs![(.const (.str py!"ipv4")), (.glob py!"IPv4Stats")]),
    (.tuple exprs![(.const (.str py!"icmpv4")), (.glob py!"ICMPv4Stats")]),
    (.tuple exprs![(.const (.str py!"udpv4")), (.glob py!"UDPv4Stats")]),
    (.tuple exprs![(.const (.str py!"ipv6")), (.glob py!"IPv6Stats")]),
    (.tuple exprs![(.const (.str py!"icmpv6")), (.glob py!"ICMPv6Stats")]),
    (.tuple exprs![(.const (.str py!"udpv6")), (.glob py!"UDPv6Stats")]),
    (.tuple exprs![(.const (.str py!"tcp")), (.glob py!"TCPStats")])])]

/-- atoparser/structs/atop_2_8.py:435-457 -/
def SStat : TopDecl := .class py!"SStat" [(.attr (.glob py!"ctypes") py!"Structure")] [
  .assign py!"_fields_" (.list exprs![
    (.tuple exprs![(.const (.str py!"cpu")), (.glob py!"CPUStat")]),
    (.tuple exprs![(.const (.str py!"mem")), (.glob py!"MemStat")]),
    (.tuple exprs![(.const (.str py!"net")), (.glob py!"NETStat")]),
    (.tuple exprs![(.const (.str py!"intf")), (.glob py!"IntfStat")]),
    (.tuple exprs![(.const (.str py!"memnuma")), (.glob py!"MemNUMA")]),
    (.tuple exprs![(.const (.str py!"cpunuma")), (.glob py!"CPUNUMA")]),
    (.tuple exprs![(.const (.str py!"dsk")), (.glob py!"DSKStat")]),
    (.tuple exprs![(.const (.str py!"nfs")), (.glob py!"NFSStat")]),
    (.tuple exprs![(.const (.str py!"cfs")), (.glob py!"ContStat")]),
    (.tuple exprs![(.const (.str py!"psi")), (.glob py!"Pressure")]),
    (.tuple exprs![(.const (.str py!"gpu")), (.glob py!"GPUStat")]),
    (.tuple exprs![(.const (.str py!"ifb")), (.glob py!"IFBStat")]),
    (.tuple exprs![(.const (.str py!"llc")), (.glob py!"LLCStat")]),
    (.tuple exprs![(.const (.str py!"www")), (.glob py!"WWWStat")])])]

/-- atoparser/structs/atop_2_8.py:460-496 -/
def GEN : TopDecl := .class py!"GEN" [(.attr (.glob py!"ctypes") py!"Structure")] [
  .assign py!"_fields_" (.list exprs![
    (.tuple exprs![(.const (.str py!"tgid")), (.attr (.glob py!"ctypes") py!"c_int")]),
    (.tuple exprs![(.const (.str py!"pid")), (.attr (.glob py!"ctypes") py!"c_int")]),
    (.tuple exprs![(.const (.str py!"ppid")), (.attr (.glob py!"ctypes") py!"c_int")]),
    (.tuple exprs![(.const (.str py!"ruid")), (.attr (.glob py!"ctypes") py!"c_int")]),
    (.tuple exprs![(.const (.str py!"euid")), (.attr (.glob py!"ctypes") py!"c_int")]),
    (.tuple exprs![(.const (.str py!"suid")), (.attr (.glob py!"ctypes") py!"c_int")]),
    (.tuple exprs![(.const (.str py!"fsuid")), (.attr (.glob py!"ctypes") py!"c_int")]),
    (.tuple exprs![(.const (.str py!"rgid")), (.attr (.glob py!"ctypes") py!"c_int")]),
    (.tuple exprs![(.const (.str py!"egid")), (.attr (.glob py!"ctypes") py!"c_int")]),
    (.tuple exprs![(.const (.str py!"sgid")), (.attr (.glob py!"ctypes") py!"c_int")]),
    (.tuple exprs![(.const (.str py!"fsgid")), (.attr (.glob py!"ctypes") py!"c_int")]),
    (.tuple exprs![(.const (.str py!"nthr")), (.attr (.glob py!"ctypes") py!"c_int")]),
    (.tuple exprs![(.const (.str py!"name")), (.bin .mul (.attr (.glob py!"ctypes") py!"c_char") (.bin .add (.glob py!"PNAMLEN") (.const (.int 1))))]),
    (.tuple exprs![(.const (.str py!"isproc")), (.attr (.glob py!"ctypes") py!"c_char")]),
    (.tuple exprs![(.const (.str py!"state")), (.attr (.glob py!"ctypes") py!"c_char")]),
    (.tuple exprs![(.const (.str py!"excode")), (.attr (.glob py!"ctypes") py!"c_int")]),
    (.tuple exprs![(.const (.str py!"btime")), (.glob py!"time_t")]),
    (.tuple exprs![(.const (.str py!"elaps")), (.glob py!"time_t")]),
    (.tuple exprs![(.const (.str py!"cmdline")), (.bin .mul (.attr (.glob py!"ctypes") py!"c_char") (.bin .add (.glob py!"CMDLEN") (.const (.int 1))))]),
    (.tuple exprs![(.const (.str py!"nthrslpi")), (.attr (.glob py!"ctypes") py!"c_int")]),
    (.tuple exprs![(.const (.str py!"nthrslpu")), (.attr (.glob py!"ctypes") py!"c_int")]),
    (.tuple exprs![(.const (.str py!"nthrrun")), (.attr (.glob py!"ctypes") py!"c_int")]),
    (.tuple exprs![(.const (.str py!"ctid")), (.attr (.glob py!"ctypes") py!"c_int")]),
    (.tuple exprs![(.const (.str py!"vpid")), (.attr (.glob py!"ctypes") py!"c_int")]),
    (.tuple exprs![(.const (.str py!"wasinactive")), (.attr (.glob py!"ctypes") py!"c_int")]),
    (.tuple exprs![(.const (.str py!"container")), (.bin .mul (.attr (.glob py!"ctypes") py!"c_char") (.const (.int 16)))]),
    (.tuple exprs![(.const (.str py!"cgpath")), (.bin .mul (.attr (.glob py!"ctypes") py!"c_char") (.glob py!"CGRLEN"))])])]

/-- atoparser/structs/atop_2_8.py:499-524 -/
def CPU : TopDecl := .class py!"CPU" [(.attr (.glob py!"ctypes") py!"Structure")] [
  .assign py!"_fields_" (.list exprs![
    (.tuple exprs![(.const (.str py!"utime")), (.glob py!"count_t")]),
    (.tuple exprs![(.const (.str py!"stime")), (.glob py!"count_t")]),
    (.tuple exprs![(.const (.str py!"nice")), (.attr (.glob py!"ctypes") py!"c_int")]),
    (.tuple exprs![(.const (.str py!"prio")), (.attr (.glob py!"ctypes") py!"c_int")]),
    (.tuple exprs![(.const (.str py!"rtprio")), (.attr (.glob py!"ctypes") py!"c_int")]),
    (.tuple exprs![(.const (.str py!"policy")), (.attr (.glob py!"ctypes") py!"c_int")]),
    (.tuple exprs![(.const (.str py!"curcpu")), (.attr (.glob py!"ctypes") py!"c_int")]),
    (.tuple exprs![(.const (.str py!"sleepavg")), (.attr (.glob py!"ctypes") py!"c_int")]),
    (.tuple exprs![(.const (.str py!"cgcpuweight")), (.attr (.glob py!"ctypes") py!"c_int")]),
    (.tuple exprs![(.const (.str py!"cgcpumax")), (.attr (.glob py!"ctypes") py!"c_int")]),
    (.tuple exprs![(.const (.str py!"cgcpumaxr")), (.attr (.glob py!"ctypes") py!"c_int")]),
    (.tuple exprs![(.const (.str py!"ifuture")), (.bin .mul (.attr (.glob py!"ctypes") py!"c_int") (.const (.int 3)))]),
    (.tuple exprs![(.const (.str py!"wchan")), (.bin .mul (.attr (.glob py!"ctypes") py!"c_char") (.const (.int 16)))]),
    (.tuple exprs![(.const (.str py!"rundelay")), (.glob py!"count_t")]),
    (.tuple exprs![(.const (.str py!"blkdelay")), (.glob py!"count_t")]),
    (.tuple exprs![(.const (.str py!"cfuture")), (.bin .mul (.glob py!"count_t") (.const (.int 3)))])])]

/-- atoparser/structs/atop_2_8.py:530-557 -/
def MEM : TopDecl := .class py!"MEM" [(.attr (.glob py!"ctypes") py!"Structure")] [
  .assign py!"_fields_" (.list exprs![
    (.tuple exprs![(.const (.str py!"minflt")), (.glob py!"count_t")]),
    (.tuple exprs![(.const (.str py!"majflt")), (.glob py!"count_t")]),
    (.tuple exprs![(.const (.str py!"vexec")), (.glob py!"count_t")]),
    (.tuple exprs![(.const (.str py!"vmem")), (.glob py!"count_t")]),
    (.tuple exprs![(.const (.str py!"rmem")), (.glob py!"count_t")]),
    (.tuple exprs![(.const (.str py!"pmem")), (.glob py!"count_t")]),
    (.tuple exprs![(.const (.str py!"vgrow")), (.glob py!"count_t")]),
    (.tuple exprs![(.const (.str py!"rgrow")), (.glob py!"count_t")]),
    (.tuple exprs![(.const (.str py!"vdata")), (.glob py!"count_t")]),
    (.tuple exprs![(.const (.str py!"vstack")), (.glob py!"count_t")]),
    (.tuple exprs![(.const (.str py!"vlibs")), (.glob py!"count_t")]),
    (.tuple exprs![(.const (.str py!"vswap")), (.glob py!"count_t")]),
    (.tuple exprs![(.const (.str py!"vlock")), (.glob py!"count_t")]),
    (.tuple exprs![(.const (.str py!"cgmemmax")), (.glob py!"count_t")]),
    (.tuple exprs![(.const (.str py!"cgmemmaxr")), (.glob py!"count_t")]),
    (.tuple exprs![(.const (.str py!"cgswpmax")), (.glob py!"count_t")]),
    (.tuple exprs![(.const (.str py!"cgswpmaxr")), (.glob py!"count_t")]),
    (.tuple exprs![(.const (.str py!"cfuture")), (.bin .mul (.glob py!"count_t") (.const (.int 3)))])])]

/-- atoparser/structs/atop_2_8.py:566-580 -/
def TStat : TopDecl := .class py!"TStat" [(.attr (.glob py!"ctypes") py!"Structure")] [
  .assign py!"_fields_" (.list exprs![
    (.tuple exprs![(.const (.str py!"gen")), (.glob py!"GEN")]),
    (.tuple exprs![(.const (.str py!"cpu")), (.glob py!"CPU")]),
    (.tuple exprs![(.const (.str py!"dsk")), (.glob py!"DSK")]),
    (.tuple exprs![(.const (.str py!"mem")), (.glob py!"MEM")]),
    (.tuple exprs![(.const (.str py!"net")), (.glob py!"NET")]),
    (.tuple exprs![(.const (.str py!"gpu")), (.glob py!"GPU")])])]

/-- atoparser/structs/atop_2_8.py:583-616 -/
def Header : TopDecl := .class py!"Header" [(.attr (.glob py!"ctypes") py!"Structure"), (.glob py!"HeaderMixin")] [
  .assign py!"_fields_" (.list exprs![
    (.tuple exprs![(.const (.str py!"magic")), (.attr (.glob py!"ctypes") py!"c_uint")]),
    (.tuple exprs![(.const (.str py!"aversion")), (.attr (.glob py!"ctypes") py!"c_ushort")]),
    (.tuple exprs![(.const (.str py!"future1")), (.attr (.glob py!"ctypes") py!"c_ushort")]),
    (.tuple exprs![(.const (.str py!"future2")), (.attr (.glob py!"ctypes") py!"c_ushort")]),
    (.tuple exprs![(.const (.str py!"rawheadlen")), (.attr (.glob py!"ctypes") py!"c_ushort")]),
    (.tuple exprs![(.const (.str py!"rawreclen")), (.attr (.glob py!"ctypes") py!"c_ushort")]),
    (.tuple exprs![(.const (.str py!"hertz")), (.attr (.glob py!"ctypes") py!"c_ushort")]),
    (.tuple exprs![(.const (.str py!"pidwidth")), (.attr (.glob py!"ctypes") py!"c_ushort")]),
    (.tuple exprs![(.const (.str py!"sfuture")), (.bin .mul (.attr (.glob py!"ctypes") py!"c_ushort") (.const (.int 5)))]),
    (.tuple exprs![(.const (.str py!"sstatlen")), (.attr (.glob py!"ctypes") py!"c_uint")]),
    (.tuple exprs![(.const (.str py!"tstatlen")), (.attr (.glob py!"ctypes") py!"c_uint")]),
    (.tuple exprs![(.const (.str py!"utsname")), (.glob py!"UTSName")]),
    (.tuple exprs![(.const (.str py!"cfuture")), (.bin .mul (.attr (.glob py!"ctypes") py!"c_char") (.const (.int 8)))]),
    (.tuple exprs![(.const (.str py!"pagesize")), (.attr (.glob py!"ctypes") py!"c_uint")]),
    (.tuple exprs![(.const (.str py!"supportflags")), (.attr (.glob py!"ctypes") py!"c_int")]),
    (.tuple exprs![(.const (.str py!"osrel")), (.attr (.glob py!"ctypes") py!"c_int")]),
    (.tuple exprs![(.const (.str py!"osvers")), (.attr (.glob py!"ctypes") py!"c_int")]),
    (.tuple exprs![(.const (.str py!"ossub")), (.attr (.glob py!"ctypes") py!"c_int")]),
    (.tuple exprs![(.const (.str py!"ifuture")), (.bin .mul (.attr (.glob py!"ctypes") py!"c_int") (.const (.int 6)))])]),
  .assign py!"supported_version" (.const (.str py!"2.8")),
  .assign py!"Record" (.glob py!"Record"),
  .assign py!"SStat" (.glob py!"SStat"),
  .assign py!"TStat" (.glob py!"TStat"),
  .assign py!"CStat" (.const .none),
  .assign py!"CGChainer" (.const .none)]

/-- atoparser/structs/atop_2_8.py: the statements of the module, in order. -/
def decls : List TopDecl := [
  .plain (.import py!"ctypes"),
  .plain (.fromImport py!"atoparser.structs" py!"atop_1_26"),
  .plain (.fromImport py!"atoparser.structs" py!"atop_2_3"),
  .plain (.fromImport py!"atoparser.structs" py!"atop_2_4"),
  .plain (.fromImport py!"atoparser.structs" py!"atop_2_7"),
  .plain (.fromImport py!"atoparser.structs.shared" py!"HeaderMixin"),
  .plain (.fromImport py!"atoparser.structs.shared" py!"UTSName"),
  .plain (.fromImport py!"atoparser.structs.shared" py!"count_t"),
  .plain (.fromImport py!"atoparser.structs.shared" py!"time_t"),
  .plain (.assign py!"ACCTACTIVE" (.const (.int 1))),
  .plain (.assign py!"IOSTAT" (.const (.int 4))),
  .plain (.assign py!"NETATOP" (.const (.int 16))),
  .plain (.assign py!"NETATOPD" (.const (.int 32))),
  .plain (.assign py!"DOCKSTAT" (.const (.int 64))),
  .plain (.assign py!"GPUSTAT" (.const (.int 128))),
  .plain (.assign py!"CGROUPV2" (.const (.int 256))),
  .plain (.assign py!"PNAMLEN" (.const (.int 15))),
  .plain (.assign py!"CMDLEN" (.const (.int 255))),
  .plain (.assign py!"CGRLEN" (.const (.int 64))),
  .plain (.assign py!"MAXCPU" (.const (.int 2048))),
  .plain (.assign py!"MAXDSK" (.const (.int 1024))),
  .plain (.assign py!"MAXNUMA" (.const (.int 1024))),
  .plain (.assign py!"MAXLVM" (.const (.int 2048))),
  .plain (.assign py!"MAXMDD" (.const (.int 256))),
  .plain (.assign py!"MAXINTF" (.const (.int 128))),
  .plain (.assign py!"MAXCONTAINER" (.const (.int 128))),
  .plain (.assign py!"MAXNFSMOUNT" (.const (.int 64))),
  .plain (.assign py!"MAXIBPORT" (.const (.int 32))),
  .plain (.assign py!"MAXGPU" (.const (.int 32))),
  .plain (.assign py!"MAXGPUBUS" (.const (.int 12))),
  .plain (.assign py!"MAXGPUTYPE" (.const (.int 12))),
  .plain (.assign py!"MAXLLC" (.const (.int 256))),
  .plain (.assign py!"MAXDKNAM" (.const (.int 32))),
  .plain (.assign py!"MAXIBNAME" (.const (.int 12))),
  Record,
  MemStat,
  MemPerNUMA,
  MemNUMA,
  CPUPerNUMA,
  CPUNUMA,
  .plain (.assign py!"FreqCnt" (.attr (.glob py!"atop_1_26") py!"FreqCnt")),
  .plain (.assign py!"PerCPU" (.attr (.glob py!"atop_2_7") py!"PerCPU")),
  .plain (.assign py!"CPUStat" (.attr (.glob py!"atop_2_7") py!"CPUStat")),
  PerDSK,
  DSKStat,
  .plain (.assign py!"PerIntf" (.attr (.glob py!"atop_2_3") py!"PerIntf")),
  .plain (.assign py!"IntfStat" (.attr (.glob py!"atop_2_3") py!"IntfStat")),
  .plain (.assign py!"PerNFSMount" (.attr (.glob py!"atop_2_3") py!"PerNFSMount")),
  .plain (.assign py!"Server" (.attr (.glob py!"atop_2_3") py!"Server")),
  .plain (.assign py!"Client" (.attr (.glob py!"atop_2_3") py!"Client")),
  .plain (.assign py!"NFSMounts" (.attr (.glob py!"atop_2_3") py!"NFSMounts")),
  .plain (.assign py!"NFSStat" (.attr (.glob py!"atop_2_3") py!"NFSStat")),
  .plain (.assign py!"PSI" (.attr (.glob py!"atop_2_4") py!"PSI")),
  .plain (.assign py!"Pressure" (.attr (.glob py!"atop_2_4") py!"Pressure")),
  .plain (.assign py!"PerContainer" (.attr (.glob py!"atop_2_3") py!"PerContainer")),
  .plain (.assign py!"ContStat" (.attr (.glob py!"atop_2_3") py!"ContStat")),
  .plain (.assign py!"WWWStat" (.attr (.glob py!"atop_1_26") py!"WWWStat")),
  .plain (.assign py!"PerGPU" (.attr (.glob py!"atop_2_4") py!"PerGPU")),
  .plain (.assign py!"GPUStat" (.attr (.glob py!"atop_2_4") py!"GPUStat")),
  .plain (.assign py!"PerIFB" (.attr (.glob py!"atop_2_4") py!"PerIFB")),
  .plain (.assign py!"IFBStat" (.attr (.glob py!"atop_2_4") py!"IFBStat")),
  PerLLC,
  LLCStat,
  .plain (.assign py!"IPv4Stats" (.attr (.glob py!"atop_1_26") py!"IPv4Stats")),
  ICMPv4Stats,
  .plain (.assign py!"UDPv4Stats" (.attr (.glob py!"atop_1_26") py!"UDPv4Stats")),
  .plain (.assign py!"TCPStats" (.attr (.glob py!"atop_1_26") py!"TCPStats")),
  .plain (.assign py!"IPv6Stats" (.attr (.glob py!"atop_1_26") py!"IPv6Stats")),
  .plain (.assign py!"ICMPv6Stats" (.attr (.glob py!"atop_1_26") py!"ICMPv6Stats")),
  .plain (.assign py!"UDPv6Stats" (.attr (.glob py!"atop_1_26") py!"UDPv6Stats")),
  NETStat,
  SStat,
  GEN,
  CPU,
  .plain (.assign py!"DSK" (.attr (.glob py!"atop_1_26") py!"DSK")),
  MEM,
  .plain (.assign py!"NET" (.attr (.glob py!"atop_2_3") py!"NET")),
  .plain (.assign py!"GPU" (.attr (.glob py!"atop_2_4") py!"GPU")),
  TStat,
  Header]

end Atop.Src.Text.V2_8
