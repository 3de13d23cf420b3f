-- GENERATED by tools/gen_structs.py from /repo/atoparser/structs/atop_2_12.py (read as text). Do not edit.
import Verif.Model.Structs.Shared
import Verif.Model.Structs.V1_26
import Verif.Model.Structs.V2_10
import Verif.Model.Structs.V2_11
import Verif.Model.Structs.V2_3
import Verif.Model.Structs.V2_4
import Verif.Model.Structs.V2_7
import Verif.Model.Structs.V2_8

namespace Atop

/-- atoparser/structs/atop_2_12.py:32 -/
abbrev V2_12.ACCTACTIVE : Nat := 1

/-- atoparser/structs/atop_2_12.py:33 -/
abbrev V2_12.IOSTAT : Nat := 4

/-- atoparser/structs/atop_2_12.py:34 -/
abbrev V2_12.NETATOP : Nat := 16

/-- atoparser/structs/atop_2_12.py:35 -/
abbrev V2_12.NETATOPD : Nat := 32

/-- atoparser/structs/atop_2_12.py:36 -/
abbrev V2_12.CONTAINERSTAT : Nat := 64

/-- atoparser/structs/atop_2_12.py:37 -/
abbrev V2_12.GPUSTAT : Nat := 128

/-- atoparser/structs/atop_2_12.py:38 -/
abbrev V2_12.CGROUPV2 : Nat := 256

/-- atoparser/structs/atop_2_12.py:39 -/
abbrev V2_12.NETATOPBPF : Nat := 4096

/-- atoparser/structs/atop_2_12.py:42 -/
abbrev V2_12.PNAMLEN : Nat := 15

/-- atoparser/structs/atop_2_12.py:43 -/
abbrev V2_12.CMDLEN : Nat := 255

/-- atoparser/structs/atop_2_12.py:44 -/
abbrev V2_12.CGRLEN : Nat := 64

/-- atoparser/structs/atop_2_12.py:45 -/
abbrev V2_12.UTSLEN : Nat := 15

/-- atoparser/structs/atop_2_12.py:48 -/
abbrev V2_12.MAXCPU : Nat := 2048

/-- atoparser/structs/atop_2_12.py:49 -/
abbrev V2_12.MAXDSK : Nat := 1024

/-- atoparser/structs/atop_2_12.py:50 -/
abbrev V2_12.MAXNUMA : Nat := 1024

/-- atoparser/structs/atop_2_12.py:51 -/
abbrev V2_12.MAXLVM : Nat := 2048

/-- atoparser/structs/atop_2_12.py:52 -/
abbrev V2_12.MAXMDD : Nat := 256

/-- atoparser/structs/atop_2_12.py:53 -/
abbrev V2_12.MAXINTF : Nat := 128

/-- atoparser/structs/atop_2_12.py:54 -/
abbrev V2_12.MAXCONTAINER : Nat := 128

/-- atoparser/structs/atop_2_12.py:55 -/
abbrev V2_12.MAXNFSMOUNT : Nat := 64

/-- atoparser/structs/atop_2_12.py:56 -/
abbrev V2_12.MAXIBPORT : Nat := 32

/-- atoparser/structs/atop_2_12.py:57 -/
abbrev V2_12.MAXGPU : Nat := 32

/-- atoparser/structs/atop_2_12.py:58 -/
abbrev V2_12.MAXGPUBUS : Nat := 12

/-- atoparser/structs/atop_2_12.py:59 -/
abbrev V2_12.MAXGPUTYPE : Nat := 12

/-- atoparser/structs/atop_2_12.py:60 -/
abbrev V2_12.MAXLLC : Nat := 256

/-- atoparser/structs/atop_2_12.py:61 -/
abbrev V2_12.MAXDKNAM : Nat := 32

/-- atoparser/structs/atop_2_12.py:62 -/
abbrev V2_12.MAXIBNAME : Nat := 12

/-- atoparser/structs/atop_2_12.py:65 -/
def V2_12.Record : CType := V2_11.Record

/-- atoparser/structs/atop_2_12.py:68 -/
def V2_12.MemStat : CType := V2_11.MemStat

/-- atoparser/structs/atop_2_12.py:71 -/
def V2_12.MemPerNUMA : CType := V2_11.MemPerNUMA

/-- atoparser/structs/atop_2_12.py:74 -/
def V2_12.MemNUMA : CType := V2_11.MemNUMA

/-- atoparser/structs/atop_2_12.py:77 -/
def V2_12.CPUPerNUMA : CType := V2_11.CPUPerNUMA

/-- atoparser/structs/atop_2_12.py:80 -/
def V2_12.CPUNUMA : CType := V2_11.CPUNUMA

/-- atoparser/structs/atop_2_12.py:83 -/
def V2_12.FreqCnt : CType := V1_26.FreqCnt

/-- atoparser/structs/atop_2_12.py:86 -/
def V2_12.PerCPU : CType := V2_7.PerCPU

/-- atoparser/structs/atop_2_12.py:89 -/
def V2_12.CPUStat : CType := V2_7.CPUStat

/-- atoparser/structs/atop_2_12.py:92 -/
def V2_12.PerDSK : CType := V2_8.PerDSK

/-- atoparser/structs/atop_2_12.py:95 -/
def V2_12.DSKStat : CType := V2_8.DSKStat

/-- atoparser/structs/atop_2_12.py:98 -/
def V2_12.PerIntf : CType := V2_3.PerIntf

/-- atoparser/structs/atop_2_12.py:101 -/
def V2_12.IntfStat : CType := V2_3.IntfStat

/-- atoparser/structs/atop_2_12.py:104 -/
def V2_12.PerNFSMount : CType := V2_3.PerNFSMount

/-- atoparser/structs/atop_2_12.py:107 -/
def V2_12.Server : CType := V2_3.Server

/-- atoparser/structs/atop_2_12.py:110 -/
def V2_12.Client : CType := V2_3.Client

/-- atoparser/structs/atop_2_12.py:113 -/
def V2_12.NFSMounts : CType := V2_3.NFSMounts

/-- atoparser/structs/atop_2_12.py:116 -/
def V2_12.NFSStat : CType := V2_3.NFSStat

/-- atoparser/structs/atop_2_12.py:119 -/
def V2_12.PSI : CType := V2_4.PSI

/-- atoparser/structs/atop_2_12.py:122 -/
def V2_12.Pressure : CType := V2_4.Pressure

/-- atoparser/structs/atop_2_12.py:125 -/
def V2_12.PerContainer : CType := V2_3.PerContainer

/-- atoparser/structs/atop_2_12.py:128 -/
def V2_12.ContStat : CType := V2_3.ContStat

/-- atoparser/structs/atop_2_12.py:131 -/
def V2_12.WWWStat : CType := V1_26.WWWStat

/-- atoparser/structs/atop_2_12.py:134 -/
def V2_12.PerGPU : CType := V2_4.PerGPU

/-- atoparser/structs/atop_2_12.py:137 -/
def V2_12.GPUStat : CType := V2_4.GPUStat

/-- atoparser/structs/atop_2_12.py:140 -/
def V2_12.PerIFB : CType := V2_11.PerIFB

/-- atoparser/structs/atop_2_12.py:143 -/
def V2_12.IFBStat : CType := V2_11.IFBStat

/-- atoparser/structs/atop_2_12.py:146 -/
def V2_12.PerLLC : CType := V2_8.PerLLC

/-- atoparser/structs/atop_2_12.py:149 -/
def V2_12.LLCStat : CType := V2_8.LLCStat

/-- atoparser/structs/atop_2_12.py:152 -/
def V2_12.IPv4Stats : CType := V1_26.IPv4Stats

/-- atoparser/structs/atop_2_12.py:155 -/
def V2_12.ICMPv4Stats : CType := V2_8.ICMPv4Stats

/-- atoparser/structs/atop_2_12.py:158 -/
def V2_12.UDPv4Stats : CType := V1_26.UDPv4Stats

/-- atoparser/structs/atop_2_12.py:161 -/
def V2_12.TCPStats : CType := V2_10.TCPStats

/-- atoparser/structs/atop_2_12.py:164 -/
def V2_12.IPv6Stats : CType := V1_26.IPv6Stats

/-- atoparser/structs/atop_2_12.py:167 -/
def V2_12.ICMPv6Stats : CType := V1_26.ICMPv6Stats

/-- atoparser/structs/atop_2_12.py:170 -/
def V2_12.UDPv6Stats : CType := V1_26.UDPv6Stats

/-- atoparser/structs/atop_2_12.py:173 -/
def V2_12.NETStat : CType := V2_10.NETStat

/-- atoparser/structs/atop_2_12.py:176 -/
def V2_12.SStat : CType := V2_11.SStat

/-- atoparser/structs/atop_2_12.py:179 -/
def V2_12.GEN : CType := V2_11.GEN

/-- atoparser/structs/atop_2_12.py:182 -/
def V2_12.CPU : CType := V2_11.CPU

/-- atoparser/structs/atop_2_12.py:185 -/
def V2_12.DSK : CType := V1_26.DSK

/-- atoparser/structs/atop_2_12.py:188 -/
def V2_12.MEM : CType := V2_11.MEM

/-- atoparser/structs/atop_2_12.py:191 -/
def V2_12.NET : CType := V2_3.NET

/-- atoparser/structs/atop_2_12.py:194 -/
def V2_12.GPU : CType := V2_11.GPU

/-- atoparser/structs/atop_2_12.py:197 -/
def V2_12.TStat : CType := V2_11.TStat

/-- atoparser/structs/atop_2_12.py:200 -/
def V2_12.CGGen : CType := V2_11.CGGen

/-- atoparser/structs/atop_2_12.py:203 -/
def V2_12.CGConf : CType := V2_11.CGConf

/-- atoparser/structs/atop_2_12.py:206 -/
def V2_12.CGCPU : CType := V2_11.CGCPU

/-- atoparser/structs/atop_2_12.py:209 -/
def V2_12.CGMem : CType := V2_11.CGMem

/-- atoparser/structs/atop_2_12.py:212 -/
def V2_12.CGDSK : CType := V2_11.CGDSK

/-- atoparser/structs/atop_2_12.py:215 -/
def V2_12.CStat : CType := V2_11.CStat

/-- atoparser/structs/atop_2_12.py:221-234 -/
def V2_12.Header : HeaderClass where
  supportedVersion := py!"2.12"
  fields := V2_11.Header.fields
  Record := V2_12.Record
  SStat := V2_12.SStat
  TStat := V2_12.TStat
  CStat := some V2_12.CStat

end Atop
