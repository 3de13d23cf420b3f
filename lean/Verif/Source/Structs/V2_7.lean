import Verif.Source.Syntax
/-!
# The source text of atoparser/structs/atop_2_7.py, as syntax trees

Generated by tools/gen_source.py --structs; do not edit.
-/

set_option maxRecDepth 4000

namespace Atop.Src.Text.V2_7

/-- atoparser/structs/atop_2_7.py:60-103 -/
def MemStat : TopDecl := .class py!"MemStat" [(.attr (.glob py!"ctypes") py!"Structure")] [
  .assign py!"_fields_" (.list exprs![
    (.tuple exprs![(.const (.str py!"physmem")), (.glob py!"count_t")]),
    (.tuple exprs![(.const (.str py!"freemem")), (.glob py!"count_t")]),
    (.tuple exprs![(.const (.str py!"buffermem")), (.glob py!"count_t")]),
    (.tuple exprs![(.const (.str py!"slabmem")), (.glob py!"count_t")]),
    (.tuple exprs![(.const (.str py!"cachemem")), (.glob py!"count_t")]),
    (.tuple exprs![(.const (.str py!"cachedrt")), (.glob py!"count_t")]),
    (.tuple exprs![(.const (.str py!"totswap")), (.glob py!"count_t")]),
    (.tuple exprs![(.const (.str py!"freeswap")), (.glob py!"count_t")]),
    (.tuple exprs![(.const (.str py!"pgscans")), (.glob py!"count_t")]),
    (.tuple exprs![(.const (.str py!"pgsteal")), (.glob py!"count_t")]),
    (.tuple exprs![(.const (.str py!"allocstall")), (.glob py!"count_t")]),
    (.tuple exprs![(.const (.str py!"swouts")), (.glob py!"count_t")]),
    (.tuple exprs![(.const (.str py!"swins")), (.glob py!"count_t")]),
    (.tuple exprs![(.const (.str py!"commitlim")), (.glob py!"count_t")]),
    (.tuple exprs![(.const (.str py!"committed")), (.glob py!"count_t")]),
    (.tuple exprs![(.const (.str py!"shmem")), (.glob py!"count_t")]),
    (.tuple exprs![(.const (.str py!"shmrss")), (.glob py!"count_t")]),
    (.tuple exprs![(.const (.str py!"shmswp")), (.glob py!"count_t")]),
    (.tuple exprs![(.const (.str py!"slabreclaim")), (.glob py!"count_t")]),
    (.tuple exprs![(.const (.str py!"tothugepage")), (.glob py!"count_t")]),
    (.tuple exprs![(.const (.str py!"freehugepage")), (.glob py!"count_t")]),
    (.tuple exprs![(.const (.str py!"hugepagesz")), (.glob py!"count_t")]),
    (.tuple exprs![(.const (.str py!"vmwballoon")), (.glob py!"count_t")]),
    (.tuple exprs![(.const (.str py!"zfsarcsize")), (.glob py!"count_t")]),
    (.tuple exprs![(.const (.str py!"swapcached")), (.glob py!"count_t")]),
    (.tuple exprs![(.const (.str py!"ksmsharing")), (.glob py!"count_t")]),
    (.tuple exprs![(.const (.str py!"ksmshared")), (.glob py!"count_t")]),
    (.tuple exprs![(.const (.str py!"zswstored")), (.glob py!"count_t")]),
    (.tuple exprs![(.const (.str py!"zswtotpool")), (.glob py!"count_t")]),
    (.tuple exprs![(.const (.str py!"oomkills")), (.glob py!"count_t")]),
    (.tuple exprs![(.const (.str py!"compactstall")), (.glob py!"count_t")]),
    (.tuple exprs![(.const (.str py!"pgmigrate")), (.glob py!"count_t")]),
    (.tuple exprs![(.const (.str py!"numamigrate")), (.glob py!"count_t")]),
    (.tuple exprs![(.const (.str py!"cfuture")), (.bin .mul (.glob py!"count_t") (.const (.int 9)))])])]

/-- atoparser/structs/atop_2_7.py:106-126 -/
def MemPerNUMA : TopDecl := .class py!"MemPerNUMA" [(.attr (.glob py!"ctypes") py!"Structure")] [
  .assign py!"_fields_" (.list exprs![
    (.tuple exprs![(.const (.str py!"frag")), (.attr (.glob py!"ctypes") py!"c_float")]),
    (.tuple exprs![(.const (.str py!"totmem")), (.glob py!"count_t")]),
    (.tuple exprs![(.const (.str py!"freemem")), (.glob py!"count_t")]),
    (.tuple exprs![(.const (.str py!"filepage")), (.glob py!"count_t")]),
    (.tuple exprs![(.const (.str py!"dirtymem")), (.glob py!"count_t")]),
    (.tuple exprs![(.const (.str py!"slabmem")), (.glob py!"count_t")]),
    (.tuple exprs![(.const (.str py!"slabreclaim")), (.glob py!"count_t")]),
    (.tuple exprs![(.const (.str py!"active")), (.glob py!"count_t")]),
    (.tuple exprs![(.const (.str py!"inactive")), (.glob py!"count_t")]),
    (.tuple exprs![(.const (.str py!"shmem")), (.glob py!"count_t")]),
    (.tuple exprs![(.const (.str py!"tothp")), (.glob py!"count_t")])])]

/-- atoparser/structs/atop_2_7.py:129-141 -/
def MemNUMA : TopDecl := .class py!"MemNUMA" [(.attr (.glob py!"ctypes") py!"Structure")] [
  .assign py!"_fields_" (.list exprs![
    (.tuple exprs![(.const (.str py!"nrnuma")), (.glob py!"count_t")]),
    (.tuple exprs![(.const (.str py!"numa")), (.bin .mul (.glob py!"MemPerNUMA") (.glob py!"MAXNUMA"))])]),
  .assign py!"fields_limiters" (.dict (.cons (.const (.str py!"numa")) (.const (.str py!"nrnuma")) <| .nil))]

/-- atoparser/structs/atop_2_7.py:144-163 -/
def CPUPerNUMA : TopDecl := .class py!"CPUPerNUMA" [(.attr (.glob py!"ctypes") py!"Structure")] [
  .assign py!"_fields_" (.list exprs![
    (.tuple exprs![(.const (.str py!"nrcpu")), (.glob py!"count_t")]),
    (.tuple exprs![(.const (.str py!"stime")), (.glob py!"count_t")]),
    (.tuple exprs![(.const (.str py!"utime")), (.glob py!"count_t")]),
    (.tuple exprs![(.const (.str py!"ntime")), (.glob py!"count_t")]),
    (.tuple exprs![(.const (.str py!"itime")), (.glob py!"count_t")]),
    (.tuple exprs![(.const (.str py!"wtime")), (.glob py!"count_t")]),
    (.tuple exprs![(.const (.str py!"Itime")), (.glob py!"count_t")]),
    (.tuple exprs![(.const (.str py!"Stime")), (.glob py!"count_t")]),
    (.tuple exprs![(.const (.str py!"steal")), (.glob py!"count_t")]),
    (.tuple exprs![(.const (.str py!"guest")), (.glob py!"count_t")])])]

/-- atoparser/structs/atop_2_7.py:166-178 -/
def CPUNUMA : TopDecl := .class py!"CPUNUMA" [(.attr (.glob py!"ctypes") py!"Structure")] [
  .assign py!"_fields_" (.list exprs![
    (.tuple exprs![(.const (.str py!"nrnuma")), (.glob py!"count_t")]),
    (.tuple exprs![(.const (.str py!"numa")), (.bin .mul (.glob py!"CPUPerNUMA") (.glob py!"MAXNUMA"))])]),
  .assign py!"fields_limiters" (.dict (.cons (.const (.str py!"numa")) (.const (.str py!"nrnuma")) <| .nil))]

/-- atoparser/structs/atop_2_7.py:184-207 -/
def PerCPU : TopDecl := .class py!"PerCPU" [(.attr (.glob py!"ctypes") py!"Structure")] [
  .assign py!"_fields_" (.list exprs![
    (.tuple exprs![(.const (.str py!"cpunr")), (.attr (.glob py!"ctypes") py!"c_int")]),
    (.tuple exprs![(.const (.str py!"stime")), (.glob py!"count_t")]),
    (.tuple exprs![(.const (.str py!"utime")), (.glob py!"count_t")]),
    (.tuple exprs![(.const (.str py!"ntime")), (.glob py!"count_t")]),
    (.tuple exprs![(.const (.str py!"itime")), (.glob py!"count_t")]),
    (.tuple exprs![(.const (.str py!"wtime")), (.glob py!"count_t")]),
    (.tuple exprs![(.const (.str py!"Itime")), (.glob py!"count_t")]),
    (.tuple exprs![(.const (.str py!"Stime")), (.glob py!"count_t")]),
    (.tuple exprs![(.const (.str py!"steal")), (.glob py!"count_t")]),
    (.tuple exprs![(.const (.str py!"guest")), (.glob py!"count_t")]),
    (.tuple exprs![(.const (.str py!"freqcnt")), (.glob py!"FreqCnt")]),
    (.tuple exprs![(.const (.str py!"instr")), (.glob py!"count_t")]),
    (.tuple exprs![(.const (.str py!"cycle")), (.glob py!"count_t")]),
    (.tuple exprs![(.const (.str py!"cfuture")), (.bin .mul (.glob py!"count_t") (.const (.int 6)))])])]

/-- atoparser/structs/atop_2_7.py:210-230 -/
def CPUStat : TopDecl := .class py!"CPUStat" [(.attr (.glob py!"ctypes") py!"Structure")] [
  .assign py!"_fields_" (.list exprs![
    (.tuple exprs![(.const (.str py!"nrcpu")), (.glob py!"count_t")]),
    (.tuple exprs![(.const (.str py!"devint")), (.glob py!"count_t")]),
    (.tuple exprs![(.const (.str py!"csw")), (.glob py!"count_t")]),
    (.tuple exprs![(.const (.str py!"nprocs")), (.glob py!"count_t")]),
    (.tuple exprs![(.const (.str py!"lavg1")), (.attr (.glob py!"ctypes") py!"c_float")]),
    (.tuple exprs![(.const (.str py!"lavg5")), (.attr (.glob py!"ctypes") py!"c_float")]),
    (.tuple exprs![(.const (.str py!"lavg15")), (.attr (.glob py!"ctypes") py!"c_float")]),
    (.tuple exprs![(.const (.str py!"cfuture")), (.bin .mul (.glob py!"count_t") (.const (.int 4)))]),
    (.tuple exprs![(.const (.str py!"all")), (.glob py!"PerCPU")]),
    (.tuple exprs![(.const (.str py!"cpu")), (.bin .mul (.glob py!"PerCPU") (.glob py!"MAXCPU"))])]),
  .assign py!"fields_limiters" (.dict (.cons (.const (.str py!"cpu")) (.const (.str py!"nrcpu")) <| .nil))]

/-- atoparser/structs/atop_2_7.py:233-252 -/
def PerDSK : TopDecl := .class py!"PerDSK" [(.attr (.glob py!"ctypes") py!"Structure")] [
  .assign py!"_fields_" (.list exprs![
    (.tuple exprs![(.const (.str py!"name")), (.bin .mul (.attr (.glob py!"ctypes") py!"c_char") (.glob py!"MAXDKNAM"))]),
    (.tuple exprs![(.const (.str py!"nread")), (.glob py!"count_t")]),
    (.tuple exprs![(.const (.str py!"nrsect")), (.glob py!"count_t")]),
    (.tuple exprs![(.const (.str py!"nwrite")), (.glob py!"count_t")]),
    (.tuple exprs![(.const (.str py!"nwsect")), (.glob py!"count_t")]),
    (.tuple exprs![(.const (.str py!"io_ms")), (.glob py!"count_t")]),
    (.tuple exprs![(.const (.str py!"avque")), (.glob py!"count_t")]),
    (.tuple exprs![(.const (.str py!"ndisc")), (.glob py!"count_t")]),
    (.tuple exprs![(.const (.str py!"ndsect")), (.glob py!"count_t")]),
    (.tuple exprs![(.const (.str py!"cfuture")), (.bin .mul (.glob py!"count_t") (.const (.int 2)))])])]

/-- atoparser/structs/atop_2_7.py:255-275 -/
def DSKStat : TopDecl := .class py!"DSKStat" [(.attr (.glob py!"ctypes") py!"Structure")] [
  .assign py!"_fields_" (.list exprs![
    (.tuple exprs![(.const (.str py!"ndsk")), (.attr (.glob py!"ctypes") py!"c_int")]),
    (.tuple exprs![(.const (.str py!"nmdd")), (.attr (.glob py!"ctypes") py!"c_int")]),
    (.tuple exprs![(.const (.str py!"nlvm")), (.attr (.glob py!"ctypes") py!"c_int")]),
    (.tuple exprs![(.const (.str py!"dsk")), (.bin .mul (.glob py!"PerDSK") (.glob py!"MAXDSK"))]),
    (.tuple exprs![(.const (.str py!"mdd")), (.bin .mul (.glob py!"PerDSK") (.glob py!"MAXMDD"))]),
    (.tuple exprs![(.const (.str py!"lvm")), (.bin .mul (.glob py!"PerDSK") (.glob py!"MAXLVM"))])]),
  .assign py!"fields_limiters" (.dict (.cons (.const (.str py!"dsk")) (.const (.str py!"ndsk")) <| .cons (.const (.str py!"mdd")) (.const (.str py!"nmdd")) <| .cons (.const (.str py!"lvm")) (.const (.str py!"nlvm")) <| .nil))]

/-- atoparser/structs/atop_2_7.py:350-371 -/
def SStat : TopDecl := .class py!"SStat" [(.attr (.glob py!"ctypes") py!"Structure")] [
  .assign py!"_fields_" (.list exprs![
    (.tuple exprs![(.const (.str py!"cpu")), (.glob py!"CPUStat")]),
    (.tuple exprs![(.const (.str py!"mem")), (.glob py!"MemStat")]),
    (.tuple exprs![(.const (.str py!"net")), (.glob py!"NETStat")]),
    (.tuple exprs![(.const (.str py!"intf")), (.glob py!"IntfStat")]),
    (.tuple exprs![(.const (.str py!"memnuma")), (.glob py!"MemNUMA")]),
    (.tuple exprs![(.const (.str py!"cpunuma")), (.glob py!"CPUNUMA")]),
    (.tuple exprs![(.const (.str py!"dsk")), (.glob py!"DSKStat")]),
    (.tuple exprs![(.const (.str py!"nfs")), (.glob py!"NFSStat")]),
    (.tuple exprs![(.const (.str py!"cfs")), (.glob py!"ContStat")]),
    (.tuple exprs![(.const (.str py!"psi")), (.glob py!"Pressure")]),
    (.tuple exprs![(.const (.str py!"gpu")), (.glob py!"GPUStat")]),
    (.tuple exprs![(.const (.str py!"ifb")), (.glob py!"IFBStat")]),
    (.tuple exprs![(.const (.str py!"www")), (.glob py!"WWWStat")])])]

/-- atoparser/structs/atop_2_7.py:395-403 -/
def Header : TopDecl := .class py!"Header" [(.attr (.glob py!"atop_2_3") py!"Header")] [
  .assign py!"supported_version" (.const (.str py!"2.7")),
  .assign py!"Record" (.glob py!"Record"),
  .assign py!"SStat" (.glob py!"SStat"),
  .assign py!"TStat" (.glob py!"TStat"),
  .assign py!"CStat" (.const .none),
  .assign py!"CGChainer" (.const .none)]

/-- atoparser/structs/atop_2_7.py: the statements of the module, in order. -/
def decls : List TopDecl := [
  .plain (.import py!"ctypes"),
  .plain (.fromImport py!"atoparser.structs" py!"atop_1_26"),
  .plain (.fromImport py!"atoparser.structs" py!"atop_2_3"),
  .plain (.fromImport py!"atoparser.structs" py!"atop_2_4"),
  .plain (.fromImport py!"atoparser.structs" py!"atop_2_6"),
  .plain (.fromImport py!"atoparser.structs.shared" py!"count_t"),
  .plain (.assign py!"ACCTACTIVE" (.const (.int 1))),
  .plain (.assign py!"IOSTAT" (.const (.int 4))),
  .plain (.assign py!"NETATOP" (.const (.int 16))),
  .plain (.assign py!"NETATOPD" (.const (.int 32))),
  .plain (.assign py!"DOCKSTAT" (.const (.int 64))),
  .plain (.assign py!"GPUSTAT" (.const (.int 128))),
  .plain (.assign py!"PNAMLEN" (.const (.int 15))),
  .plain (.assign py!"CMDLEN" (.const (.int 255))),
  .plain (.assign py!"MAXCPU" (.const (.int 2048))),
  .plain (.assign py!"MAXDSK" (.const (.int 1024))),
  .plain (.assign py!"MAXNUMA" (.const (.int 1024))),
  .plain (.assign py!"MAXLVM" (.const (.int 2048))),
  .plain (.assign py!"MAXMDD" (.const (.int 256))),
  .plain (.assign py!"MAXINTF" (.const (.int 128))),
  .plain (.assign py!"MAXCONTAINER" (.const (.int 128))),
  .plain (.assign py!"MAXNFSMOUNT" (.const (.int 64))),
  .plain (.assign py!"MAXIBPORT" (.const (.int 32))),
  .plain (.assign py!"MAXGPU" (.const (.int 32))),
  .plain (.assign py!"MAXGPUBUS" (.const (.int 12))),
  .plain (.assign py!"MAXGPUTYPE" (.const (.int 12))),
  .plain (.assign py!"MAXDKNAM" (.const (.int 32))),
  .plain (.assign py!"MAXIBNAME" (.const (.int 12))),
  .plain (.assign py!"Record" (.attr (.glob py!"atop_2_3") py!"Record")),
  MemStat,
  MemPerNUMA,
  MemNUMA,
  CPUPerNUMA,
  CPUNUMA,
  .plain (.assign py!"FreqCnt" (.attr (.glob py!"atop_1_26") py!"FreqCnt")),
  PerCPU,
  CPUStat,
  PerDSK,
  DSKStat,
  .plain (.assign py!"PerIntf" (.attr (.glob py!"atop_2_3") py!"PerIntf")),
  .plain (.assign py!"IntfStat" (.attr (.glob py!"atop_2_3") py!"IntfStat")),
  .plain (.assign py!"PerNFSMount" (.attr (.glob py!"atop_2_3") py!"PerNFSMount")),
  .plain (.assign py!"Server" (.attr (.glob py!"atop_2_3") py!"Server")),
  .plain (.assign py!"Client" (.attr (.glob py!"atop_2_3") py!"Client")),
  .plain (.assign py!"NFSMounts" (.attr (.glob py!"atop_2_3") py!"NFSMounts")),
  .plain (.assign py!"NFSStat" (.attr (.glob py!"atop_2_3") py!"NFSStat")),
  .plain (.assign py!"PSI" (.attr (.glob py!"atop_2_4") py!"PSI")),
  .plain (.assign py!"Pressure" (.attr (.glob py!"atop_2_4") py!"Pressure")),
  .plain (.assign py!"PerContainer" (.attr (.glob py!"atop_2_3") py!"PerContainer")),
  .plain (.assign py!"ContStat" (.attr (.glob py!"atop_2_3") py!"ContStat")),
  .plain (.assign py!"WWWStat" (.attr (.glob py!"atop_1_26") py!"WWWStat")),
  .plain (.assign py!"PerGPU" (.attr (.glob py!"atop_2_4") py!"PerGPU")),
  .plain (.assign py!"GPUStat" (.attr (.glob py!"atop_2_4") py!"GPUStat")),
  .plain (.assign py!"PerIFB" (.attr (.glob py!"atop_2_4") py!"PerIFB")),
  .plain (.assign py!"IFBStat" (.attr (.glob py!"atop_2_4") py!"IFBStat")),
  .plain (.assign py!"IPv4Stats" (.attr (.glob py!"atop_1_26") py!"IPv4Stats")),
  .plain (.assign py!"ICMPv4Stats" (.attr (.glob py!"atop_1_26") py!"ICMPv4Stats")),
  .plain (.assign py!"UDPv4Stats" (.attr (.glob py!"atop_1_26") py!"UDPv4Stats")),
  .plain (.assign py!"TCPStats" (.attr (.glob py!"atop_1_26") py!"TCPStats")),
  .plain (.assign py!"IPv6Stats" (.attr (.glob py!"atop_1_26") py!"IPv6Stats")),
  .plain (.assign py!"ICMPv6Stats" (.attr (.glob py!"atop_1_26") py!"ICMPv6Stats")),
  .plain (.assign py!"UDPv6Stats" (.attr (.glob py!"atop_1_26") py!"UDPv6Stats")),
  .plain (.assign py!"NETStat" (.attr (.glob py!"atop_1_26") py!"NETStat")),
  SStat,
  .plain (.assign py!"GEN" (.attr (.glob py!"atop_2_3") py!"GEN")),
  .plain (.assign py!"CPU" (.attr (.glob py!"atop_2_6") py!"CPU")),
  .plain (.assign py!"DSK" (.attr (.glob py!"atop_1_26") py!"DSK")),
  .plain (.assign py!"MEM" (.attr (.glob py!"atop_2_6") py!"MEM")),
  .plain (.assign py!"NET" (.attr (.glob py!"atop_2_3") py!"NET")),
  .plain (.assign py!"GPU" (.attr (.glob py!"atop_2_4") py!"GPU")),
  .plain (.assign py!"TStat" (.attr (.glob py!"atop_2_6") py!"TStat")),
  Header]

end Atop.Src.Text.V2_7
