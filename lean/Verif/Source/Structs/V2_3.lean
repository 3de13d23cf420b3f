import Verif.Source.Syntax
/-!
# The source text of atoparser/structs/atop_2_3.py, as syntax trees

Generated by tools/gen_source.py --structs; do not edit.
-/

set_option maxRecDepth 4000

namespace Atop.Src.Text.V2_3

/-- atoparser/structs/atop_2_3.py:50-75 -/
def Record : TopDecl := .class py!"Record" [(.attr (.glob py!"ctypes") py!"Structure")] [
  .assign py!"_fields_" (.list exprs![
    (.tuple exprs![(.const (.str py!"curtime")), (.glob py!"time_t")]),
    (.tuple exprs![(.const (.str py!"flags")), (.attr (.glob py!"ctypes") py!"c_ushort")]),
    (.tuple exprs![(.const (.str py!"sfuture")), (.bin .mul (.attr (.glob py!"ctypes") py!"c_ushort") (.const (.int 3)))]),
    (.tuple exprs![(.const (.str py!"scomplen")), (.attr (.glob py!"ctypes") py!"c_uint")]),
    (.tuple exprs![(.const (.str py!"pcomplen")), (.attr (.glob py!"ctypes") py!"c_uint")]),
    (.tuple exprs![(.const (.str py!"interval")), (.attr (.glob py!"ctypes") py!"c_uint")]),
    (.tuple exprs![(.const (.str py!"ndeviat")), (.attr (.glob py!"ctypes") py!"c_uint")]),
    (.tuple exprs![(.const (.str py!"nactproc")), (.attr (.glob py!"ctypes") py!"c_uint")]),
    (.tuple exprs![(.const (.str py!"ntask")), (.attr (.glob py!"ctypes") py!"c_uint")]),
    (.tuple exprs![(.const (.str py!"totproc")), (.attr (.glob py!"ctypes") py!"c_uint")]),
    (.tuple exprs![(.const (.str py!"totrun")), (.attr (.glob py!"ctypes") py!"c_uint")]),
    (.tuple exprs![(.const (.str py!"totslpi")), (.attr (.glob py!"ctypes") py!"c_uint")]),
    (.tuple exprs![(.const (.str py!"totslpu")), (.attr (.glob py!"ctypes") py!"c_uint")]),
    (.tuple exprs![(.const (.str py!"totzomb")), (.attr (.glob py!"ctypes") py!"c_uint")]),
    (.tuple exprs![(.const (.str py!"nexit")), (.attr (.glob py!"ctypes") py!"c_uint")]),
    (.tuple exprs![(.const (.str py!"noverflow")), (.attr (.glob py!"ctypes") py!"c_uint")]),
    (.tuple exprs![(.const (.str py!"ifuture")), (.bin .mul (.attr (.glob py!"ctypes") py!"c_uint") (.const (.int 6)))])])]

/-- atoparser/structs/atop_2_3.py:78-111 -/
def MemStat : TopDecl := .class py!"MemStat" [(.attr (.glob py!"ctypes") py!"Structure")] [
  .assign py!"_fields_" (.list exprs![
    (.tuple exprs![(.const (.str py!"physmem")), (.glob py!"count_t")]),
    (.tuple exprs![(.const (.str py!"freemem")), (.glob py!"count_t")]),
    (.tuple exprs![(.const (.str py!"buffermem")), (.glob py!"count_t")]),
    (.tuple exprs![(.const (.str py!"slabmem")), (.glob py!"count_t")]),
    (.tuple exprs![(.const (.str py!"cachemem")), (.glob py!"count_t")]),
    (.tuple exprs![(.const (.str py!"cachedrt")), (.glob py!"count_t")]),
    (.tuple exprs![(.const (.str py!"totswap")), (.glob py!"count_t")]),
    (.tuple exprs![(.const (.str py!"freeswap")), (.glob py!"count_t")]),
    (.tuple exprs![(.const (.str py!"pgscans")), (.glob py!"count_t")]),
    (.tuple exprs![(.const (.str py!"pgsteal")), (.glob py!"count_t")]),
    (.tuple exprs![(.const (.str py!"allocstall")), (.glob py!"count_t")]),
    (.tuple exprs![(.const (.str py!"swouts")), (.glob py!"count_t")]),
    (.tuple exprs![(.const (.str py!"swins")), (.glob py!"count_t")]),
    (.tuple exprs![(.const (.str py!"commitlim")), (.glob py!"count_t")]),
    (.tuple exprs![(.const (.str py!"committed")), (.glob py!"count_t")]),
    (.tuple exprs![(.const (.str py!"shmem")), (.glob py!"count_t")]),
    (.tuple exprs![(.const (.str py!"shmrss")), (.glob py!"count_t")]),
    (.tuple exprs![(.const (.str py!"shmswp")), (.glob py!"count_t")]),
    (.tuple exprs![(.const (.str py!"slabreclaim")), (.glob py!"count_t")]),
    (.tuple exprs![(.const (.str py!"tothugepage")), (.glob py!"count_t")]),
    (.tuple exprs![(.const (.str py!"freehugepage")), (.glob py!"count_t")]),
    (.tuple exprs![(.const (.str py!"hugepagesz")), (.glob py!"count_t")]),
    (.tuple exprs![(.const (.str py!"vmwballoon")), (.glob py!"count_t")]),
    (.tuple exprs![(.const (.str py!"cfuture")), (.bin .mul (.glob py!"count_t") (.const (.int 8)))])])]

/-- atoparser/structs/atop_2_3.py:117-138 -/
def PerCPU : TopDecl := .class py!"PerCPU" [(.attr (.glob py!"ctypes") py!"Structure")] [
  .assign py!"_fields_" (.list exprs![
    (.tuple exprs![(.const (.str py!"cpunr")), (.attr (.glob py!"ctypes") py!"c_int")]),
    (.tuple exprs![(.const (.str py!"stime")), (.glob py!"count_t")]),
    (.tuple exprs![(.const (.str py!"utime")), (.glob py!"count_t")]),
    (.tuple exprs![(.const (.str py!"ntime")), (.glob py!"count_t")]),
    (.tuple exprs![(.const (.str py!"itime")), (.glob py!"count_t")]),
    (.tuple exprs![(.const (.str py!"wtime")), (.glob py!"count_t")]),
    (.tuple exprs![(.const (.str py!"Itime")), (.glob py!"count_t")]),
    (.tuple exprs![(.const (.str py!"Stime")), (.glob py!"count_t")]),
    (.tuple exprs![(.const (.str py!"steal")), (.glob py!"count_t")]),
    (.tuple exprs![(.const (.str py!"guest")), (.glob py!"count_t")]),
    (.tuple exprs![(.const (.str py!"freqcnt")), (.glob py!"FreqCnt")]),
    (.tuple exprs![(.const (.str py!"cfuture")), (.bin .mul (.glob py!"count_t") (.const (.int 4)))])])]

/-- atoparser/structs/atop_2_3.py:141-161 -/
def CPUStat : TopDecl := .class py!"CPUStat" [(.attr (.glob py!"ctypes") py!"Structure")] [
  .assign py!"_fields_" (.list exprs![
    (.tuple exprs![(.const (.str py!"nrcpu")), (.glob py!"count_t")]),
    (.tuple exprs![(.const (.str py!"devint")), (.glob py!"count_t")]),
    (.tuple exprs![(.const (.str py!"csw")), (.glob py!"count_t")]),
    (.tuple exprs![(.const (.str py!"nprocs")), (.glob py!"count_t")]),
    (.tuple exprs![(.const (.str py!"lavg1")), (.attr (.glob py!"ctypes") py!"c_float")]),
    (.tuple exprs![(.const (.str py!"lavg5")), (.attr (.glob py!"ctypes") py!"c_float")]),
    (.tuple exprs![(.const (.str py!"lavg15")), (.attr (.glob py!"ctypes") py!"c_float")]),
    (.tuple exprs![(.const (.str py!"cfuture")), (.bin .mul (.glob py!"count_t") (.const (.int 4)))]),
    (.tuple exprs![(.const (.str py!"all")), (.glob py!"PerCPU")]),
    (.tuple exprs![(.const (.str py!"cpu")), (.bin .mul (.glob py!"PerCPU") (.glob py!"MAXCPU"))])]),
  .assign py!"fields_limiters" (.dict (.cons (.const (.str py!"cpu")) (.const (.str py!"nrcpu")) <| .nil))]

/-- atoparser/structs/atop_2_3.py:164-181 -/
def PerDSK : TopDecl := .class py!"PerDSK" [(.attr (.glob py!"ctypes") py!"Structure")] [
  .assign py!"_fields_" (.list exprs![
    (.tuple exprs![(.const (.str py!"name")), (.bin .mul (.attr (.glob py!"ctypes") py!"c_char") (.glob py!"MAXDKNAM"))]),
    (.tuple exprs![(.const (.str py!"nread")), (.glob py!"count_t")]),
    (.tuple exprs![(.const (.str py!"nrsect")), (.glob py!"count_t")]),
    (.tuple exprs![(.const (.str py!"nwrite")), (.glob py!"count_t")]),
    (.tuple exprs![(.const (.str py!"nwsect")), (.glob py!"count_t")]),
    (.tuple exprs![(.const (.str py!"io_ms")), (.glob py!"count_t")]),
    (.tuple exprs![(.const (.str py!"avque")), (.glob py!"count_t")]),
    (.tuple exprs![(.const (.str py!"cfuture")), (.bin .mul (.glob py!"count_t") (.const (.int 4)))])])]

/-- atoparser/structs/atop_2_3.py:184-204 -/
def DSKStat : TopDecl := .class py!"DSKStat" [(.attr (.glob py!"ctypes") py!"Structure")] [
  .assign py!"_fields_" (.list exprs![
    (.tuple exprs![(.const (.str py!"ndsk")), (.attr (.glob py!"ctypes") py!"c_int")]),
    (.tuple exprs![(.const (.str py!"nmdd")), (.attr (.glob py!"ctypes") py!"c_int")]),
    (.tuple exprs![(.const (.str py!"nlvm")), (.attr (.glob py!"ctypes") py!"c_int")]),
    (.tuple exprs![(.const (.str py!"dsk")), (.bin .mul (.glob py!"PerDSK") (.glob py!"MAXDSK"))]),
    (.tuple exprs![(.const (.str py!"mdd")), (.bin .mul (.glob py!"PerDSK") (.glob py!"MAXMDD"))]),
    (.tuple exprs![(.const (.str py!"lvm")), (.bin .mul (.glob py!"PerDSK") (.glob py!"MAXLVM"))])]),
  .assign py!"fields_limiters" (.dict (.cons (.const (.str py!"dsk")) (.const (.str py!"ndsk")) <| .cons (.const (.str py!"mdd")) (.const (.str py!"nmdd")) <| .cons (.const (.str py!"lvm")) (.const (.str py!"nlvm")) <| .nil))]

/-- atoparser/structs/atop_2_3.py:207-240 -/
def PerIntf : TopDecl := .class py!"PerIntf" [(.attr (.glob py!"ctypes") py!"Structure")] [
  .assign py!"_fields_" (.list exprs![
    (.tuple exprs![(.const (.str py!"name")), (.bin .mul (.attr (.glob py!"ctypes") py!"c_char") (.const (.int 16)))]),
    (.tuple exprs![(.const (.str py!"rbyte")), (.glob py!"count_t")]),
    (.tuple exprs![(.const (.str py!"rpack")), (.glob py!"count_t")]),
    (.tuple exprs![(.const (.str py!"rerrs")), (.glob py!"count_t")]),
    (.tuple exprs![(.const (.str py!"rdrop")), (.glob py!"count_t")]),
    (.tuple exprs![(.const (.str py!"rfifo")), (.glob py!"count_t")]),
    (.tuple exprs![(.const (.str py!"rframe")), (.glob py!"count_t")]),
    (.tuple exprs![(.const (.str py!"rcompr")), (.glob py!"count_t")]),
    (.tuple exprs![(.const (.str py!"rmultic")), (.glob py!"count_t")]),
    (.tuple exprs![(.const (.str py!"rfuture")), (.bin .mul (.glob py!"count_t") (.const (.int 4)))]),
    (.tuple exprs![(.const (.str py!"sbyte")), (.glob py!"count_t")]),
    (.tuple exprs![(.const (.str py!"spack")), (.glob py!"count_t")]),
    (.tuple exprs![(.const (.str py!"serrs")), (.glob py!"count_t")]),
    (.tuple exprs![(.const (.str py!"sdrop")), (.glob py!"count_t")]),
    (.tuple exprs![(.const (.str py!"sfifo")), (.glob py!"count_t")]),
    (.tuple exprs![(.const (.str py!"scollis")), (.glob py!"count_t")]),
    (.tuple exprs![(.const (.str py!"scarrier")), (.glob py!"count_t")]),
    (.tuple exprs![(.const (.str py!"scompr")), (.glob py!"count_t")]),
    (.tuple exprs![(.const (.str py!"sfuture")), (.bin .mul (.glob py!"count_t") (.const (.int 4)))]),
    (.tuple exprs![(.const (.str py!"type")), (.attr (.glob py!"ctypes") py!"c_char")]),
    (.tuple exprs![(.const (.str py!"speed")), (.attr (.glob py!"ctypes") py!"c_long")]),
    (.tuple exprs![(.const (.str py!"speedp")), (.attr (.glob py!"ctypes") py!"c_long")]),
    (.tuple exprs![(.const (.str py!"duplex")), (.attr (.glob py!"ctypes") py!"c_char")]),
    (.tuple exprs![(.const (.str py!"cfuture")), (.bin .mul (.glob py!"count_t") (.const (.int 4)))])])]

/-- atoparser/structs/atop_2_3.py:243-257 -/
def IntfStat : TopDecl := .class py!"IntfStat" [(.attr (.glob py!"ctypes") py!"Structure")] [
  .assign py!"_fields_" (.list exprs![
    (.tuple exprs![(.const (.str py!"nrintf")), (.attr (.glob py!"ctypes") py!"c_int")]),
    (.tuple exprs![(.const (.str py!"intf")), (.bin .mul (.glob py!"PerIntf") (.glob py!"MAXINTF"))])]),
  .assign py!"fields_limiters" (.dict (.cons (.const (.str py!"intf")) (.const (.str py!"nrintf")) <| .nil))]

/-- atoparser/structs/atop_2_3.py:260-280 -/
def PerNFSMount : TopDecl := .class py!"PerNFSMount" [(.attr (.glob py!"ctypes") py!"Structure")] [
  .assign py!"_fields_" (.list exprs![
    (.tuple exprs![(.const (.str py!"mountdev")), (.bin .mul (.attr (.glob py!"ctypes") py!"c_char") (.const (.int 128)))]),
    (.tuple exprs![(.const (.str py!"age")), (.glob py!"count_t")]),
    (.tuple exprs![(.const (.str py!"bytesread")), (.glob py!"count_t")]),
    (.tuple exprs![(.const (.str py!"byteswrite")), (.glob py!"count_t")]),
    (.tuple exprs![(.const (.str py!"bytesdread")), (.glob py!"count_t")]),
    (.tuple exprs![(.const (.str py!"bytesdwrite")), (.glob py!"count_t")]),
    (.tuple exprs![(.const (.str py!"bytestotread")), (.glob py!"count_t")]),
    (.tuple exprs![(.const (.str py!"bytestotwrite")), (.glob py!"count_t")]),
    (.tuple exprs![(.const (.str py!"pagesmread")), (.glob py!"count_t")]),
    (.tuple exprs![(.const (.str py!"pagesmwrite")), (.glob py!"count_t")]),
    (.tuple exprs![(.const (.str py!"future")), (.bin .mul (.glob py!"count_t") (.const (.int 8)))])])]

/-- atoparser/structs/atop_2_3.py:283-308 -/
def Server : TopDecl := .class py!"Server" [(.attr (.glob py!"ctypes") py!"Structure")] [
  .assign py!"_fields_" (.list exprs![
    (.tuple exprs![(.const (.str py!"netcnt")), (.glob py!"count_t")]),
    (.tuple exprs![(.const (.str py!"netudpcnt")), (.glob py!"count_t")]),
    (.tuple exprs![(.const (.str py!"nettcpcnt")), (.glob py!"count_t")]),
    (.tuple exprs![(.const (.str py!"nettcpcon")), (.glob py!"count_t")]),
    (.tuple exprs![(.const (.str py!"rpccnt")), (.glob py!"count_t")]),
    (.tuple exprs![(.const (.str py!"rpcbadfmt")), (.glob py!"count_t")]),
    (.tuple exprs![(.const (.str py!"rpcbadaut")), (.glob py!"count_t")]),
    (.tuple exprs![(.const (.str py!"rpcbadcln")), (.glob py!"count_t")]),
    (.tuple exprs![(.const (.str py!"rpcread")), (.glob py!"count_t")]),
    (.tuple exprs![(.const (.str py!"rpcwrite")), (.glob py!"count_t")]),
    (.tuple exprs![(.const (.str py!"rchits")), (.glob py!"count_t")]),
    (.tuple exprs![(.const (.str py!"rcmiss")), (.glob py!"count_t")]),
    (.tuple exprs![(.const (.str py!"rcnoca")), (.glob py!"count_t")]),
    (.tuple exprs![(.const (.str py!"nrbytes")), (.glob py!"count_t")]),
    (.tuple exprs![(.const (.str py!"nwbytes")), (.glob py!"count_t")]),
    (.tuple exprs![(.const (.str py!"future")), (.bin .mul (.glob py!"count_t") (.const (.int 8)))])])]

/-- atoparser/structs/atop_2_3.py:311-326 -/
def Client : TopDecl := .class py!"Client" [(.attr (.glob py!"ctypes") py!"Structure")] [
  .assign py!"_fields_" (.list exprs![
    (.tuple exprs![(.const (.str py!"rpccnt")), (.glob py!"count_t")]),
    (.tuple exprs![(.const (.str py!"rpcretrans")), (.glob py!"count_t")]),
    (.tuple exprs![(.const (.str py!"rpcautrefresh")), (.glob py!"count_t")]),
    (.tuple exprs![(.const (.str py!"rpcread")), (.glob py!"count_t")]),
    (.tuple exprs![(.const (.str py!"rpcwrite")), (.glob py!"count_t")]),
    (.tuple exprs![(.const (.str py!"future")), (.bin .mul (.glob py!"count_t") (.const (.int 8)))])])]

/-- atoparser/structs/atop_2_3.py:329-343 -/
def NFSMounts : TopDecl := .class py!"NFSMounts" [(.attr (.glob py!"ctypes") py!"Structure")] [
  .assign py!"_fields_" (.list exprs![
    (.tuple exprs![(.const (.str py!"nrmounts")), (.attr (.glob py!"ctypes") py!"c_int")]),
    (.tuple exprs![(.const (.str py!"nfsmnt")), (.bin .mul (.glob py!"PerNFSMount") (.glob py!"MAXNFSMOUNT"))])]),
  .assign py!"fields_limiters" (.dict (.cons (.const (.str py!"nfsmnt")) (.const (.str py!"nrmounts")) <| .nil))]

/-- atoparser/structs/atop_2_3.py:346-358 -/
def NFSStat : TopDecl := .class py!"NFSStat" [(.attr (.glob py!"ctypes") py!"Structure")] [
  .assign py!"_fields_" (.list exprs![
    (.tuple exprs![(.const (.str py!"server")), (.glob py!"Server")]),
    (.tuple exprs![(.const (.str py!"client")), (.glob py!"Client")]),
    (.tuple exprs![(.const (.str py!"nfsmounts")), (.glob py!"NFSMounts")])])]

/-- atoparser/structs/atop_2_3.py:361-377 -/
def PerContainer : TopDecl := .class py!"PerContainer" [(.attr (.glob py!"ctypes") py!"Structure")] [
  .assign py!"_fields_" (.list exprs![
    (.tuple exprs![(.const (.str py!"ctid")), (.attr (.glob py!"ctypes") py!"c_ulong")]),
    (.tuple exprs![(.const (.str py!"numproc")), (.attr (.glob py!"ctypes") py!"c_ulong")]),
    (.tuple exprs![(.const (.str py!"system")), (.glob py!"count_t")]),
    (.tuple exprs![(.const (.str py!"user")), (.glob py!"count_t")]),
    (.tuple exprs![(.const (.str py!"nice")), (.glob py!"count_t")]),
    (.tuple exprs![(.const (.str py!"uptime")), (.glob py!"count_t")]),
    (.tuple exprs![(.const (.str py!"physpages")), (.glob py!"count_t")])])]

/-- atoparser/structs/atop_2_3.py:380-394 -/
def ContStat : TopDecl := .class py!"ContStat" [(.attr (.glob py!"ctypes") py!"Structure")] [
  .assign py!"_fields_" (.list exprs![
    (.tuple exprs![(.const (.str py!"nrcontainer")), (.attr (.glob py!"ctypes") py!"c_int")]),
    (.tuple exprs![(.const (.str py!"cont")), (.bin .mul (.glob py!"PerContainer") (.glob py!"MAXCONTAINER"))])]),
  .assign py!"fields_limiters" (.dict (.cons (.const (.str py!"cont")) (.const (.str py!"nrcontainer")) <| .nil))]

/-- atoparser/structs/atop_2_3.py:424-440 -/
def SStat : TopDecl := .class py!"SStat" [(.attr (.glob py!"ctypes") py!"Structure")] [
  .assign py!"_fields_" (.list exprs![
    (.tuple exprs![(.const (.str py!"cpu")), (.glob py!"CPUStat")]),
    (.tuple exprs![(.const (.str py!"mem")), (.glob py!"MemStat")]),
    (.tuple exprs![(.const (.str py!"net")), (.glob py!"NETStat")]),
    (.tuple exprs![(.const (.str py!"intf")), (.glob py!"IntfStat")]),
    (.tuple exprs![(.const (.str py!"dsk")), (.glob py!"DSKStat")]),
    (.tuple exprs![(.const (.str py!"nfs")), (.glob py!"NFSStat")]),
    (.tuple exprs![(.const (.str py!"cfs")), (.glob py!"ContStat")]),
    (.tuple exprs![(.const (.str py!"www")), (.glob py!"WWWStat")])])]

/-- atoparser/structs/atop_2_3.py:443-478 -/
def GEN : TopDecl := .class py!"GEN" [(.attr (.glob py!"ctypes") py!"Structure")] [
  .assign py!"_fields_" (.list exprs![
    (.tuple exprs![(.const (.str py!"tgid")), (.attr (.glob py!"ctypes") py!"c_int")]),
    (.tuple exprs![(.const (.str py!"pid")), (.attr (.glob py!"ctypes") py!"c_int")]),
    (.tuple exprs![(.const (.str py!"ppid")), (.attr (.glob py!"ctypes") py!"c_int")]),
    (.tuple exprs![(.const (.str py!"ruid")), (.attr (.glob py!"ctypes") py!"c_int")]),
    (.tuple exprs![(.const (.str py!"euid")), (.attr (.glob py!"ctypes") py!"c_int")]),
    (.tuple exprs![(.const (.str py!"suid")), (.attr (.glob py!"ctypes") py!"c_int")]),
    (.tuple exprs![(.const (.str py!"fsuid")), (.attr (.glob py!"ctypes") py!"c_int")]),
    (.tuple exprs![(.const (.str py!"rgid")), (.attr (.glob py!"ctypes") py!"c_int")]),
    (.tuple exprs![(.const (.str py!"egid")), (.attr (.glob py!"ctypes") py!"c_int")]),
    (.tuple exprs![(.const (.str py!"sgid")), (.attr (.glob py!"ctypes") py!"c_int")]),
    (.tuple exprs![(.const (.str py!"fsgid")), (.attr (.glob py!"ctypes") py!"c_int")]),
    (.tuple exprs![(.const (.str py!"nthr")), (.attr (.glob py!"ctypes") py!"c_int")]),
    (.tuple exprs![(.const (.str py!"name")), (.bin .mul (.attr (.glob py!"ctypes") py!"c_char") (.bin .add (.glob py!"PNAMLEN") (.const (.int 1))))]),
    (.tuple exprs![(.const (.str py!"isproc")), (.attr (.glob py!"ctypes") py!"c_char")]),
    (.tuple exprs![(.const (.str py!"state")), (.attr (.glob py!"ctypes") py!"c_char")]),
    (.tuple exprs![(.const (.str py!"excode")), (.attr (.glob py!"ctypes") py!"c_int")]),
    (.tuple exprs![(.const (.str py!"btime")), (.glob py!"time_t")]),
    (.tuple exprs![(.const (.str py!"elaps")), (.glob py!"time_t")]),
    (.tuple exprs![(.const (.str py!"cmdline")), (.bin .mul (.attr (.glob py!"ctypes") py!"c_char") (.bin .add (.glob py!"CMDLEN") (.const (.int 1))))]),
    (.tuple exprs![(.const (.str py!"nthrslpi")), (.attr (.glob py!"ctypes") py!"c_int")]),
    (.tuple exprs![(.const (.str py!"nthrslpu")), (.attr (.glob py!"ctypes") py!"c_int")]),
    (.tuple exprs![(.const (.str py!"nthrrun")), (.attr (.glob py!"ctypes") py!"c_int")]),
    (.tuple exprs![(.const (.str py!"ctid")), (.attr (.glob py!"ctypes") py!"c_int")]),
    (.tuple exprs![(.const (.str py!"vpid")), (.attr (.glob py!"ctypes") py!"c_int")]),
    (.tuple exprs![(.const (.str py!"wasinactive")), (.attr (.glob py!"ctypes") py!"c_int")]),
    (.tuple exprs![(.const (.str py!"container")), (.bin .mul (.attr (.glob py!"ctypes") py!"c_char") (.const (.int 16)))])])]

/-- atoparser/structs/atop_2_3.py:487-509 -/
def MEM : TopDecl := .class py!"MEM" [(.attr (.glob py!"ctypes") py!"Structure")] [
  .assign py!"_fields_" (.list exprs![
    (.tuple exprs![(.const (.str py!"minflt")), (.glob py!"count_t")]),
    (.tuple exprs![(.const (.str py!"majflt")), (.glob py!"count_t")]),
    (.tuple exprs![(.const (.str py!"vexec")), (.glob py!"count_t")]),
    (.tuple exprs![(.const (.str py!"vmem")), (.glob py!"count_t")]),
    (.tuple exprs![(.const (.str py!"rmem")), (.glob py!"count_t")]),
    (.tuple exprs![(.const (.str py!"pmem")), (.glob py!"count_t")]),
    (.tuple exprs![(.const (.str py!"vgrow")), (.glob py!"count_t")]),
    (.tuple exprs![(.const (.str py!"rgrow")), (.glob py!"count_t")]),
    (.tuple exprs![(.const (.str py!"vdata")), (.glob py!"count_t")]),
    (.tuple exprs![(.const (.str py!"vstack")), (.glob py!"count_t")]),
    (.tuple exprs![(.const (.str py!"vlibs")), (.glob py!"count_t")]),
    (.tuple exprs![(.const (.str py!"vswap")), (.glob py!"count_t")]),
    (.tuple exprs![(.const (.str py!"cfuture")), (.bin .mul (.glob py!"count_t") (.const (.int 4)))])])]

/-- atoparser/structs/atop_2_3.py:512-532 -/
def NET : TopDecl := .class py!"NET" [(.attr (.glob py!"ctypes") py!"Structure")] [
  .assign py!"_fields_" (.list exprs![
    (.tuple exprs![(.const (.str py!"tcpsnd")), (.glob py!"count_t")]),
    (.tuple exprs![(.const (.str py!"tcpssz")), (.glob py!"count_t")]),
    (.tuple exprs![(.const (.str py!"tcprcv")), (.glob py!"count_t")]),
    (.tuple exprs![(.const (.str py!"tcprsz")), (.glob py!"count_t")]),
    (.tuple exprs![(.const (.str py!"udpsnd")), (.glob py!"count_t")]),
    (.tuple exprs![(.const (.str py!"udpssz")), (.glob py!"count_t")]),
    (.tuple exprs![(.const (.str py!"udprcv")), (.glob py!"count_t")]),
    (.tuple exprs![(.const (.str py!"udprsz")), (.glob py!"count_t")]),
    (.tuple exprs![(.const (.str py!"avail1")), (.glob py!"count_t")]),
    (.tuple exprs![(.const (.str py!"avail2")), (.glob py!"count_t")]),
    (.tuple exprs![(.const (.str py!"cfuture")), (.bin .mul (.glob py!"count_t") (.const (.int 4)))])])]

/-- atoparser/structs/atop_2_3.py:535-548 -/
def TStat : TopDecl := .class py!"TStat" [(.attr (.glob py!"ctypes") py!"Structure")] [
  .assign py!"_fields_" (.list exprs![
    (.tuple exprs![(.const (.str py!"gen")), (.glob py!"GEN")]),
    (.tuple exprs![(.const (.str py!"cpu")), (.glob py!"CPU")]),
    (.tuple exprs![(.const (.str py!"dsk")), (.glob py!"DSK")]),
    (.tuple exprs![(.const (.str py!"mem")), (.glob py!"MEM")]),
    (.tuple exprs![(.const (.str py!"net")), (.glob py!"NET")])])]

/-- atoparser/structs/atop_2_3.py:551-583 -/
def Header : TopDecl := .class py!"Header" [(.attr (.glob py!"ctypes") py!"Structure"), (.glob py!"HeaderMixin")] [
  .assign py!"_fields_" (.list exprs![
    (.tuple exprs![(.const (.str py!"magic")), (.attr (.glob py!"ctypes") py!"c_uint")]),
    (.tuple exprs![(.const (.str py!"aversion")), (.attr (.glob py!"ctypes") py!"c_ushort")]),
    (.tuple exprs![(.const (.str py!"future1")), (.attr (.glob py!"ctypes") py!"c_ushort")]),
    (.tuple exprs![(.const (.str py!"future2")), (.attr (.glob py!"ctypes") py!"c_ushort")]),
    (.tuple exprs![(.const (.str py!"rawheadlen")), (.attr (.glob py!"ctypes") py!"c_ushort")]),
    (.tuple exprs![(.const (.str py!"rawreclen")), (.attr (.glob py!"ctypes") py!"c_ushort")]),
    (.tuple exprs![(.const (.str py!"hertz")), (.attr (.glob py!"ctypes") py!"c_ushort")]),
    (.tuple exprs![(.const (.str py!"sfuture")), (.bin .mul (.attr (.glob py!"ctypes") py!"c_ushort") (.const (.int 6)))]),
    (.tuple exprs![(.const (.str py!"sstatlen")), (.attr (.glob py!"ctypes") py!"c_uint")]),
    (.tuple exprs![(.const (.str py!"tstatlen")), (.attr (.glob py!"ctypes") py!"c_uint")]),
    (.tuple exprs![(.const (.str py!"utsname")), (.glob py!"UTSName")]),
    (.tuple exprs![(.const (.str py!"cfuture")), (.bin .mul (.attr (.glob py!"ctypes") py!"c_char") (.const (.int 8)))]),
    (.tuple exprs![(.const (.str py!"pagesize")), (.attr (.glob py!"ctypes") py!"c_uint")]),
    (.tuple exprs![(.const (.str py!"supportflags")), (.attr (.glob py!"ctypes") py!"c_int")]),
    (.tuple exprs![(.const (.str py!"osrel")), (.attr (.glob py!"ctypes") py!"c_int")]),
    (.tuple exprs![(.const (.str py!"osvers")), (.attr (.glob py!"ctypes") py!"c_int")]),
    (.tuple exprs![(.const (.str py!"ossub")), (.attr (.glob py!"ctypes") py!"c_int")]),
    (.tuple exprs![(.const (.str py!"ifuture")), (.bin .mul (.attr (.glob py!"ctypes") py!"c_int") (.const (.int 6)))])]),
  .assign py!"supported_version" (.const (.str py!"2.3")),
  .assign py!"Record" (.glob py!"Record"),
  .assign py!"SStat" (.glob py!"SStat"),
  .assign py!"TStat" (.glob py!"TStat"),
  .assign py!"CStat" (.const .none),
  .assign py!"CGChainer" (.const .none)]

/-- atoparser/structs/atop_2_3.py: the statements of the module, in order. -/
def decls : List TopDecl := [
  .plain (.import py!"ctypes"),
  .plain (.fromImport py!"atoparser.structs" py!"atop_1_26"),
  .plain (.fromImport py!"atoparser.structs.shared" py!"HeaderMixin"),
  .plain (.fromImport py!"atoparser.structs.shared" py!"UTSName"),
  .plain (.fromImport py!"atoparser.structs.shared" py!"count_t"),
  .plain (.fromImport py!"atoparser.structs.shared" py!"time_t"),
  .plain (.assign py!"ACCTACTIVE" (.const (.int 1))),
  .plain (.assign py!"IOSTAT" (.const (.int 4))),
  .plain (.assign py!"NETATOP" (.const (.int 16))),
  .plain (.assign py!"NETATOPD" (.const (.int 32))),
  .plain (.assign py!"DOCKSTAT" (.const (.int 64))),
  .plain (.assign py!"PNAMLEN" (.const (.int 15))),
  .plain (.assign py!"CMDLEN" (.const (.int 255))),
  .plain (.assign py!"MAXCPU" (.const (.int 2048))),
  .plain (.assign py!"MAXDSK" (.const (.int 1024))),
  .plain (.assign py!"MAXLVM" (.const (.int 2048))),
  .plain (.assign py!"MAXMDD" (.const (.int 256))),
  .plain (.assign py!"MAXINTF" (.const (.int 128))),
  .plain (.assign py!"MAXCONTAINER" (.const (.int 128))),
  .plain (.assign py!"MAXNFSMOUNT" (.const (.int 64))),
  .plain (.assign py!"MAXDKNAM" (.const (.int 32))),
  Record,
  MemStat,
  .plain (.assign py!"FreqCnt" (.attr (.glob py!"atop_1_26") py!"FreqCnt")),
  PerCPU,
  CPUStat,
  PerDSK,
  DSKStat,
  PerIntf,
  IntfStat,
  PerNFSMount,
  Server,
  Client,
  NFSMounts,
  NFSStat,
  PerContainer,
  ContStat,
  .plain (.assign py!"WWWStat" (.attr (.glob py!"atop_1_26") py!"WWWStat")),
  .plain (.assign py!"IPv4Stats" (.attr (.glob py!"atop_1_26") py!"IPv4Stats")),
  .plain (.assign py!"ICMPv4Stats" (.attr (.glob py!"atop_1_26") py!"ICMPv4Stats")),
  .plain (.assign py!"UDPv4Stats" (.attr (.glob py!"atop_1_26") py!"UDPv4Stats")),
  .plain (.assign py!"TCPStats" (.attr (.glob py!"atop_1_26") py!"TCPStats")),
  .plain (.assign py!"IPv6Stats" (.attr (.glob py!"atop_1_26") py!"IPv6Stats")),
  .plain (.assign py!"ICMPv6Stats" (.attr (.glob py!"atop_1_26") py!"ICMPv6Stats")),
  .plain (.assign py!"UDPv6Stats" (.attr (.glob py!"atop_1_26") py!"UDPv6Stats")),
  .plain (.assign py!"NETStat" (.attr (.glob py!"atop_1_26") py!"NETStat")),
  SStat,
  GEN,
  .plain (.assign py!"CPU" (.attr (.glob py!"atop_1_26") py!"CPU")),
  .plain (.assign py!"DSK" (.attr (.glob py!"atop_1_26") py!"DSK")),
  MEM,
  NET,
  TStat,
  Header]

end Atop.Src.Text.V2_3
