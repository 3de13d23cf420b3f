-- GENERATED by tools/gen_structs.py from /repo/atoparser/structs/atop_2_5.py (read as text). Do not edit.
import Verif.Model.Structs.V1_26
import Verif.Model.Structs.V2_3
import Verif.Model.Structs.V2_4

namespace Atop

/-- atoparser/structs/atop_2_5.py:25 -/
abbrev V2_5.ACCTACTIVE : Nat := 1

/-- atoparser/structs/atop_2_5.py:26 -/
abbrev V2_5.IOSTAT : Nat := 4

/-- atoparser/structs/atop_2_5.py:27 -/
abbrev V2_5.NETATOP : Nat := 16

/-- atoparser/structs/atop_2_5.py:28 -/
abbrev V2_5.NETATOPD : Nat := 32

/-- atoparser/structs/atop_2_5.py:29 -/
abbrev V2_5.DOCKSTAT : Nat := 64

/-- atoparser/structs/atop_2_5.py:30 -/
abbrev V2_5.GPUSTAT : Nat := 128

/-- atoparser/structs/atop_2_5.py:33 -/
abbrev V2_5.PNAMLEN : Nat := 15

/-- atoparser/structs/atop_2_5.py:34 -/
abbrev V2_5.CMDLEN : Nat := 255

/-- atoparser/structs/atop_2_5.py:37 -/
abbrev V2_5.MAXCPU : Nat := 2048

/-- atoparser/structs/atop_2_5.py:38 -/
abbrev V2_5.MAXDSK : Nat := 1024

/-- atoparser/structs/atop_2_5.py:39 -/
abbrev V2_5.MAXLVM : Nat := 2048

/-- atoparser/structs/atop_2_5.py:40 -/
abbrev V2_5.MAXMDD : Nat := 256

/-- atoparser/structs/atop_2_5.py:41 -/
abbrev V2_5.MAXINTF : Nat := 128

/-- atoparser/structs/atop_2_5.py:42 -/
abbrev V2_5.MAXCONTAINER : Nat := 128

/-- atoparser/structs/atop_2_5.py:43 -/
abbrev V2_5.MAXNFSMOUNT : Nat := 64

/-- atoparser/structs/atop_2_5.py:44 -/
abbrev V2_5.MAXIBPORT : Nat := 32

/-- atoparser/structs/atop_2_5.py:45 -/
abbrev V2_5.MAXGPU : Nat := 32

/-- atoparser/structs/atop_2_5.py:46 -/
abbrev V2_5.MAXGPUBUS : Nat := 12

/-- atoparser/structs/atop_2_5.py:47 -/
abbrev V2_5.MAXGPUTYPE : Nat := 12

/-- atoparser/structs/atop_2_5.py:48 -/
abbrev V2_5.MAXDKNAM : Nat := 32

/-- atoparser/structs/atop_2_5.py:49 -/
abbrev V2_5.MAXIBNAME : Nat := 12

/-- atoparser/structs/atop_2_5.py:52 -/
def V2_5.Record : CType := V2_3.Record

/-- atoparser/structs/atop_2_5.py:55 -/
def V2_5.MemStat : CType := V2_3.MemStat

/-- atoparser/structs/atop_2_5.py:58 -/
def V2_5.FreqCnt : CType := V1_26.FreqCnt

/-- atoparser/structs/atop_2_5.py:61 -/
def V2_5.PerCPU : CType := V2_3.PerCPU

/-- atoparser/structs/atop_2_5.py:64 -/
def V2_5.CPUStat : CType := V2_3.CPUStat

/-- atoparser/structs/atop_2_5.py:67 -/
def V2_5.PerDSK : CType := V2_3.PerDSK

/-- atoparser/structs/atop_2_5.py:70 -/
def V2_5.DSKStat : CType := V2_3.DSKStat

/-- atoparser/structs/atop_2_5.py:73 -/
def V2_5.PerIntf : CType := V2_3.PerIntf

/-- atoparser/structs/atop_2_5.py:76 -/
def V2_5.IntfStat : CType := V2_3.IntfStat

/-- atoparser/structs/atop_2_5.py:79 -/
def V2_5.PerNFSMount : CType := V2_3.PerNFSMount

/-- atoparser/structs/atop_2_5.py:82 -/
def V2_5.Server : CType := V2_3.Server

/-- atoparser/structs/atop_2_5.py:85 -/
def V2_5.Client : CType := V2_3.Client

/-- atoparser/structs/atop_2_5.py:88 -/
def V2_5.NFSMounts : CType := V2_3.NFSMounts

/-- atoparser/structs/atop_2_5.py:91 -/
def V2_5.NFSStat : CType := V2_3.NFSStat

/-- atoparser/structs/atop_2_5.py:94 -/
def V2_5.PSI : CType := V2_4.PSI

/-- atoparser/structs/atop_2_5.py:97 -/
def V2_5.Pressure : CType := V2_4.Pressure

/-- atoparser/structs/atop_2_5.py:100 -/
def V2_5.PerContainer : CType := V2_3.PerContainer

/-- atoparser/structs/atop_2_5.py:103 -/
def V2_5.ContStat : CType := V2_3.ContStat

/-- atoparser/structs/atop_2_5.py:106 -/
def V2_5.WWWStat : CType := V1_26.WWWStat

/-- atoparser/structs/atop_2_5.py:109 -/
def V2_5.PerGPU : CType := V2_4.PerGPU

/-- atoparser/structs/atop_2_5.py:112 -/
def V2_5.GPUStat : CType := V2_4.GPUStat

/-- atoparser/structs/atop_2_5.py:115 -/
def V2_5.PerIFB : CType := V2_4.PerIFB

/-- atoparser/structs/atop_2_5.py:118 -/
def V2_5.IFBStat : CType := V2_4.IFBStat

/-- atoparser/structs/atop_2_5.py:121 -/
def V2_5.IPv4Stats : CType := V1_26.IPv4Stats

/-- atoparser/structs/atop_2_5.py:124 -/
def V2_5.ICMPv4Stats : CType := V1_26.ICMPv4Stats

/-- atoparser/structs/atop_2_5.py:127 -/
def V2_5.UDPv4Stats : CType := V1_26.UDPv4Stats

/-- atoparser/structs/atop_2_5.py:130 -/
def V2_5.TCPStats : CType := V1_26.TCPStats

/-- atoparser/structs/atop_2_5.py:133 -/
def V2_5.IPv6Stats : CType := V1_26.IPv6Stats

/-- atoparser/structs/atop_2_5.py:136 -/
def V2_5.ICMPv6Stats : CType := V1_26.ICMPv6Stats

/-- atoparser/structs/atop_2_5.py:139 -/
def V2_5.UDPv6Stats : CType := V1_26.UDPv6Stats

/-- atoparser/structs/atop_2_5.py:142 -/
def V2_5.NETStat : CType := V1_26.NETStat

/-- atoparser/structs/atop_2_5.py:145 -/
def V2_5.SStat : CType := V2_4.SStat

/-- atoparser/structs/atop_2_5.py:148 -/
def V2_5.GEN : CType := V2_3.GEN

/-- atoparser/structs/atop_2_5.py:151 -/
def V2_5.CPU : CType := V1_26.CPU

/-- atoparser/structs/atop_2_5.py:154 -/
def V2_5.DSK : CType := V1_26.DSK

/-- atoparser/structs/atop_2_5.py:157 -/
def V2_5.MEM : CType := V2_3.MEM

/-- atoparser/structs/atop_2_5.py:160 -/
def V2_5.NET : CType := V2_3.NET

/-- atoparser/structs/atop_2_5.py:163 -/
def V2_5.GPU : CType := V2_4.GPU

/-- atoparser/structs/atop_2_5.py:166 -/
def V2_5.TStat : CType := V2_4.TStat

/-- atoparser/structs/atop_2_5.py:169-177 -/
def V2_5.Header : HeaderClass where
  supportedVersion := py!"2.5"
  fields := V2_3.Header.fields
  Record := V2_5.Record
  SStat := V2_5.SStat
  TStat := V2_5.TStat
  CStat := none

end Atop
