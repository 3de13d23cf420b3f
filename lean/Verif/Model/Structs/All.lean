-- GENERATED by tools/gen_structs.py. Do not edit.
import Verif.Model.Structs.Shared
import Verif.Model.Structs.V1_26
import Verif.Model.Structs.V2_3
import Verif.Model.Structs.V2_4
import Verif.Model.Structs.V2_5
import Verif.Model.Structs.V2_6
import Verif.Model.Structs.V2_7
import Verif.Model.Structs.V2_8
import Verif.Model.Structs.V2_9
import Verif.Model.Structs.V2_10
import Verif.Model.Structs.V2_11
import Verif.Model.Structs.V2_12

namespace Atop

/-- Every `ctypes.Structure` subclass declared in /repo/atoparser/structs/*.py other than the
`Header` classes (aliases denote the same class object and are not repeated). -/
def allStructs : List CType := [
  Shared.UTSName,
  V1_26.Record,
  V1_26.MemStat,
  V1_26.FreqCnt,
  V1_26.PerCPU,
  V1_26.CPUStat,
  V1_26.IPv4Stats,
  V1_26.ICMPv4Stats,
  V1_26.UDPv4Stats,
  V1_26.TCPStats,
  V1_26.IPv6Stats,
  V1_26.ICMPv6Stats,
  V1_26.UDPv6Stats,
  V1_26.NETStat,
  V1_26.PerDSK,
  V1_26.DSKStat,
  V1_26.PerIntf,
  V1_26.IntfStat,
  V1_26.WWWStat,
  V1_26.SStat,
  V1_26.GEN,
  V1_26.CPU,
  V1_26.DSK,
  V1_26.MEM,
  V1_26.NET,
  V1_26.PStat,
  V2_3.Record,
  V2_3.MemStat,
  V2_3.PerCPU,
  V2_3.CPUStat,
  V2_3.PerDSK,
  V2_3.DSKStat,
  V2_3.PerIntf,
  V2_3.IntfStat,
  V2_3.PerNFSMount,
  V2_3.Server,
  V2_3.Client,
  V2_3.NFSMounts,
  V2_3.NFSStat,
  V2_3.PerContainer,
  V2_3.ContStat,
  V2_3.SStat,
  V2_3.GEN,
  V2_3.MEM,
  V2_3.NET,
  V2_3.TStat,
  V2_4.PerCPU,
  V2_4.CPUStat,
  V2_4.PSI,
  V2_4.Pressure,
  V2_4.PerGPU,
  V2_4.GPUStat,
  V2_4.PerIFB,
  V2_4.IFBStat,
  V2_4.SStat,
  V2_4.GPU,
  V2_4.TStat,
  V2_6.MemStat,
  V2_6.PerCPU,
  V2_6.CPUStat,
  V2_6.SStat,
  V2_6.CPU,
  V2_6.MEM,
  V2_6.TStat,
  V2_7.MemStat,
  V2_7.MemPerNUMA,
  V2_7.MemNUMA,
  V2_7.CPUPerNUMA,
  V2_7.CPUNUMA,
  V2_7.PerCPU,
  V2_7.CPUStat,
  V2_7.PerDSK,
  V2_7.DSKStat,
  V2_7.SStat,
  V2_8.Record,
  V2_8.MemStat,
  V2_8.MemPerNUMA,
  V2_8.MemNUMA,
  V2_8.CPUPerNUMA,
  V2_8.CPUNUMA,
  V2_8.PerDSK,
  V2_8.DSKStat,
  V2_8.PerLLC,
  V2_8.LLCStat,
  V2_8.ICMPv4Stats,
  V2_8.NETStat,
  V2_8.SStat,
  V2_8.GEN,
  V2_8.CPU,
  V2_8.MEM,
  V2_8.TStat,
  V2_9.CPU,
  V2_9.TStat,
  V2_10.Record,
  V2_10.MemStat,
  V2_10.MemPerNUMA,
  V2_10.MemNUMA,
  V2_10.TCPStats,
  V2_10.NETStat,
  V2_10.SStat,
  V2_10.GEN,
  V2_10.CPU,
  V2_10.TStat,
  V2_11.Record,
  V2_11.MemStat,
  V2_11.MemPerNUMA,
  V2_11.MemNUMA,
  V2_11.CPUPerNUMA,
  V2_11.CPUNUMA,
  V2_11.PerIFB,
  V2_11.IFBStat,
  V2_11.SStat,
  V2_11.GEN,
  V2_11.CPU,
  V2_11.MEM,
  V2_11.GPU,
  V2_11.TStat,
  V2_11.CGGen,
  V2_11.CGConf,
  V2_11.CGCPU,
  V2_11.CGMem,
  V2_11.CGDSK,
  V2_11.CStat]

end Atop
