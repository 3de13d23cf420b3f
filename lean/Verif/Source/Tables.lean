import Verif.Source.Classes
/-!
# The names of the modules of atoparser/structs

For every module the names it has after its import, the newest first, and the class of Verif/Model/Structs or the number
each stands for.  Written out by tools/gen_tables.py; Verif/Proofs/SourceClasses.lean checks every line against the
execution of the text.
-/

set_option maxRecDepth 4000

namespace Atop.Src.Tables

/-- atoparser/structs/shared.py -/
def shared : Names := [
  (py!"UTSName", .ctype Shared.UTSName),
  (py!"HeaderMixin", .icls py!"HeaderMixin"),
  (py!"pid_t", .ctype pid_t),
  (py!"off_t", .ctype off_t),
  (py!"count_t", .ctype count_t),
  (py!"time_t", .ctype time_t),
  (py!"ctypes", .mod py!"ctypes")]

/-- atoparser/structs/atop_1_26.py -/
def v1_26 : Names := [
  (py!"Header", .hcls V1_26.Header),
  (py!"TStat", .ctype V1_26.TStat),
  (py!"PStat", .ctype V1_26.PStat),
  (py!"NET", .ctype V1_26.NET),
  (py!"MEM", .ctype V1_26.MEM),
  (py!"DSK", .ctype V1_26.DSK),
  (py!"CPU", .ctype V1_26.CPU),
  (py!"GEN", .ctype V1_26.GEN),
  (py!"SStat", .ctype V1_26.SStat),
  (py!"WWWStat", .ctype V1_26.WWWStat),
  (py!"IntfStat", .ctype V1_26.IntfStat),
  (py!"PerIntf", .ctype V1_26.PerIntf),
  (py!"DSKStat", .ctype V1_26.DSKStat),
  (py!"PerDSK", .ctype V1_26.PerDSK),
  (py!"NETStat", .ctype V1_26.NETStat),
  (py!"UDPv6Stats", .ctype V1_26.UDPv6Stats),
  (py!"ICMPv6Stats", .ctype V1_26.ICMPv6Stats),
  (py!"IPv6Stats", .ctype V1_26.IPv6Stats),
  (py!"TCPStats", .ctype V1_26.TCPStats),
  (py!"UDPv4Stats", .ctype V1_26.UDPv4Stats),
  (py!"ICMPv4Stats", .ctype V1_26.ICMPv4Stats),
  (py!"IPv4Stats", .ctype V1_26.IPv4Stats),
  (py!"CPUStat", .ctype V1_26.CPUStat),
  (py!"PerCPU", .ctype V1_26.PerCPU),
  (py!"FreqCnt", .ctype V1_26.FreqCnt),
  (py!"MemStat", .ctype V1_26.MemStat),
  (py!"Record", .ctype V1_26.Record),
  (py!"MAXINTF", .int 32),
  (py!"MAXDKNAM", .int 32),
  (py!"MAXMDD", .int 128),
  (py!"MAXLVM", .int 256),
  (py!"MAXDSK", .int 256),
  (py!"MAXCPU", .int 64),
  (py!"CMDLEN", .int 150),
  (py!"PNAMLEN", .int 15),
  (py!"PATCHACCT", .int 8),
  (py!"IOSTAT", .int 4),
  (py!"PATCHSTAT", .int 2),
  (py!"ACCTACTIVE", .int 1),
  (py!"time_t", .ctype time_t),
  (py!"count_t", .ctype count_t),
  (py!"UTSName", .ctype Shared.UTSName),
  (py!"HeaderMixin", .icls py!"HeaderMixin"),
  (py!"ctypes", .mod py!"ctypes")]

/-- atoparser/structs/atop_2_3.py -/
def v2_3 : Names := [
  (py!"Header", .hcls V2_3.Header),
  (py!"TStat", .ctype V2_3.TStat),
  (py!"NET", .ctype V2_3.NET),
  (py!"MEM", .ctype V2_3.MEM),
  (py!"DSK", .ctype V2_3.DSK),
  (py!"CPU", .ctype V2_3.CPU),
  (py!"GEN", .ctype V2_3.GEN),
  (py!"SStat", .ctype V2_3.SStat),
  (py!"NETStat", .ctype V2_3.NETStat),
  (py!"UDPv6Stats", .ctype V2_3.UDPv6Stats),
  (py!"ICMPv6Stats", .ctype V2_3.ICMPv6Stats),
  (py!"IPv6Stats", .ctype V2_3.IPv6Stats),
  (py!"TCPStats", .ctype V2_3.TCPStats),
  (py!"UDPv4Stats", .ctype V2_3.UDPv4Stats),
  (py!"ICMPv4Stats", .ctype V2_3.ICMPv4Stats),
  (py!"IPv4Stats", .ctype V2_3.IPv4Stats),
  (py!"WWWStat", .ctype V2_3.WWWStat),
  (py!"ContStat", .ctype V2_3.ContStat),
  (py!"PerContainer", .ctype V2_3.PerContainer),
  (py!"NFSStat", .ctype V2_3.NFSStat),
  (py!"NFSMounts", .ctype V2_3.NFSMounts),
  (py!"Client", .ctype V2_3.Client),
  (py!"Server", .ctype V2_3.Server),
  (py!"PerNFSMount", .ctype V2_3.PerNFSMount),
  (py!"IntfStat", .ctype V2_3.IntfStat),
  (py!"PerIntf", .ctype V2_3.PerIntf),
  (py!"DSKStat", .ctype V2_3.DSKStat),
  (py!"PerDSK", .ctype V2_3.PerDSK),
  (py!"CPUStat", .ctype V2_3.CPUStat),
  (py!"PerCPU", .ctype V2_3.PerCPU),
  (py!"FreqCnt", .ctype V2_3.FreqCnt),
  (py!"MemStat", .ctype V2_3.MemStat),
  (py!"Record", .ctype V2_3.Record),
  (py!"MAXDKNAM", .int 32),
  (py!"MAXNFSMOUNT", .int 64),
  (py!"MAXCONTAINER", .int 128),
  (py!"MAXINTF", .int 128),
  (py!"MAXMDD", .int 256),
  (py!"MAXLVM", .int 2048),
  (py!"MAXDSK", .int 1024),
  (py!"MAXCPU", .int 2048),
  (py!"CMDLEN", .int 255),
  (py!"PNAMLEN", .int 15),
  (py!"DOCKSTAT", .int 64),
  (py!"NETATOPD", .int 32),
  (py!"NETATOP", .int 16),
  (py!"IOSTAT", .int 4),
  (py!"ACCTACTIVE", .int 1),
  (py!"time_t", .ctype time_t),
  (py!"count_t", .ctype count_t),
  (py!"UTSName", .ctype Shared.UTSName),
  (py!"HeaderMixin", .icls py!"HeaderMixin"),
  (py!"atop_1_26", .mod py!"atoparser.structs.atop_1_26"),
  (py!"ctypes", .mod py!"ctypes")]

/-- atoparser/structs/atop_2_4.py -/
def v2_4 : Names := [
  (py!"Header", .hcls V2_4.Header),
  (py!"TStat", .ctype V2_4.TStat),
  (py!"GPU", .ctype V2_4.GPU),
  (py!"NET", .ctype V2_4.NET),
  (py!"MEM", .ctype V2_4.MEM),
  (py!"DSK", .ctype V2_4.DSK),
  (py!"CPU", .ctype V2_4.CPU),
  (py!"GEN", .ctype V2_4.GEN),
  (py!"SStat", .ctype V2_4.SStat),
  (py!"NETStat", .ctype V2_4.NETStat),
  (py!"UDPv6Stats", .ctype V2_4.UDPv6Stats),
  (py!"ICMPv6Stats", .ctype V2_4.ICMPv6Stats),
  (py!"IPv6Stats", .ctype V2_4.IPv6Stats),
  (py!"TCPStats", .ctype V2_4.TCPStats),
  (py!"UDPv4Stats", .ctype V2_4.UDPv4Stats),
  (py!"ICMPv4Stats", .ctype V2_4.ICMPv4Stats),
  (py!"IPv4Stats", .ctype V2_4.IPv4Stats),
  (py!"IFBStat", .ctype V2_4.IFBStat),
  (py!"PerIFB", .ctype V2_4.PerIFB),
  (py!"GPUStat", .ctype V2_4.GPUStat),
  (py!"PerGPU", .ctype V2_4.PerGPU),
  (py!"WWWStat", .ctype V2_4.WWWStat),
  (py!"ContStat", .ctype V2_4.ContStat),
  (py!"PerContainer", .ctype V2_4.PerContainer),
  (py!"Pressure", .ctype V2_4.Pressure),
  (py!"PSI", .ctype V2_4.PSI),
  (py!"NFSStat", .ctype V2_4.NFSStat),
  (py!"NFSMounts", .ctype V2_4.NFSMounts),
  (py!"Client", .ctype V2_4.Client),
  (py!"Server", .ctype V2_4.Server),
  (py!"PerNFSMount", .ctype V2_4.PerNFSMount),
  (py!"IntfStat", .ctype V2_4.IntfStat),
  (py!"PerIntf", .ctype V2_4.PerIntf),
  (py!"DSKStat", .ctype V2_4.DSKStat),
  (py!"PerDSK", .ctype V2_4.PerDSK),
  (py!"CPUStat", .ctype V2_4.CPUStat),
  (py!"PerCPU", .ctype V2_4.PerCPU),
  (py!"FreqCnt", .ctype V2_4.FreqCnt),
  (py!"MemStat", .ctype V2_4.MemStat),
  (py!"Record", .ctype V2_4.Record),
  (py!"MAXIBNAME", .int 12),
  (py!"MAXDKNAM", .int 32),
  (py!"MAXGPUTYPE", .int 12),
  (py!"MAXGPUBUS", .int 12),
  (py!"MAXGPU", .int 32),
  (py!"MAXIBPORT", .int 32),
  (py!"MAXNFSMOUNT", .int 64),
  (py!"MAXCONTAINER", .int 128),
  (py!"MAXINTF", .int 128),
  (py!"MAXMDD", .int 256),
  (py!"MAXLVM", .int 2048),
  (py!"MAXDSK", .int 1024),
  (py!"MAXCPU", .int 2048),
  (py!"CMDLEN", .int 255),
  (py!"PNAMLEN", .int 15),
  (py!"GPUSTAT", .int 128),
  (py!"DOCKSTAT", .int 64),
  (py!"NETATOPD", .int 32),
  (py!"NETATOP", .int 16),
  (py!"IOSTAT", .int 4),
  (py!"ACCTACTIVE", .int 1),
  (py!"count_t", .ctype count_t),
  (py!"atop_2_3", .mod py!"atoparser.structs.atop_2_3"),
  (py!"atop_1_26", .mod py!"atoparser.structs.atop_1_26"),
  (py!"ctypes", .mod py!"ctypes")]

/-- atoparser/structs/atop_2_5.py -/
def v2_5 : Names := [
  (py!"Header", .hcls V2_5.Header),
  (py!"TStat", .ctype V2_5.TStat),
  (py!"GPU", .ctype V2_5.GPU),
  (py!"NET", .ctype V2_5.NET),
  (py!"MEM", .ctype V2_5.MEM),
  (py!"DSK", .ctype V2_5.DSK),
  (py!"CPU", .ctype V2_5.CPU),
  (py!"GEN", .ctype V2_5.GEN),
  (py!"SStat", .ctype V2_5.SStat),
  (py!"NETStat", .ctype V2_5.NETStat),
  (py!"UDPv6Stats", .ctype V2_5.UDPv6Stats),
  (py!"ICMPv6Stats", .ctype V2_5.ICMPv6Stats),
  (py!"IPv6Stats", .ctype V2_5.IPv6Stats),
  (py!"TCPStats", .ctype V2_5.TCPStats),
  (py!"UDPv4Stats", .ctype V2_5.UDPv4Stats),
  (py!"ICMPv4Stats", .ctype V2_5.ICMPv4Stats),
  (py!"IPv4Stats", .ctype V2_5.IPv4Stats),
  (py!"IFBStat", .ctype V2_5.IFBStat),
  (py!"PerIFB", .ctype V2_5.PerIFB),
  (py!"GPUStat", .ctype V2_5.GPUStat),
  (py!"PerGPU", .ctype V2_5.PerGPU),
  (py!"WWWStat", .ctype V2_5.WWWStat),
  (py!"ContStat", .ctype V2_5.ContStat),
  (py!"PerContainer", .ctype V2_5.PerContainer),
  (py!"Pressure", .ctype V2_5.Pressure),
  (py!"PSI", .ctype V2_5.PSI),
  (py!"NFSStat", .ctype V2_5.NFSStat),
  (py!"NFSMounts", .ctype V2_5.NFSMounts),
  (py!"Client", .ctype V2_5.Client),
  (py!"Server", .ctype V2_5.Server),
  (py!"PerNFSMount", .ctype V2_5.PerNFSMount),
  (py!"IntfStat", .ctype V2_5.IntfStat),
  (py!"PerIntf", .ctype V2_5.PerIntf),
  (py!"DSKStat", .ctype V2_5.DSKStat),
  (py!"PerDSK", .ctype V2_5.PerDSK),
  (py!"CPUStat", .ctype V2_5.CPUStat),
  (py!"PerCPU", .ctype V2_5.PerCPU),
  (py!"FreqCnt", .ctype V2_5.FreqCnt),
  (py!"MemStat", .ctype V2_5.MemStat),
  (py!"Record", .ctype V2_5.Record),
  (py!"MAXIBNAME", .int 12),
  (py!"MAXDKNAM", .int 32),
  (py!"MAXGPUTYPE", .int 12),
  (py!"MAXGPUBUS", .int 12),
  (py!"MAXGPU", .int 32),
  (py!"MAXIBPORT", .int 32),
  (py!"MAXNFSMOUNT", .int 64),
  (py!"MAXCONTAINER", .int 128),
  (py!"MAXINTF", .int 128),
  (py!"MAXMDD", .int 256),
  (py!"MAXLVM", .int 2048),
  (py!"MAXDSK", .int 1024),
  (py!"MAXCPU", .int 2048),
  (py!"CMDLEN", .int 255),
  (py!"PNAMLEN", .int 15),
  (py!"GPUSTAT", .int 128),
  (py!"DOCKSTAT", .int 64),
  (py!"NETATOPD", .int 32),
  (py!"NETATOP", .int 16),
  (py!"IOSTAT", .int 4),
  (py!"ACCTACTIVE", .int 1),
  (py!"atop_2_4", .mod py!"atoparser.structs.atop_2_4"),
  (py!"atop_2_3", .mod py!"atoparser.structs.atop_2_3"),
  (py!"atop_1_26", .mod py!"atoparser.structs.atop_1_26")]

/-- atoparser/structs/atop_2_6.py -/
def v2_6 : Names := [
  (py!"Header", .hcls V2_6.Header),
  (py!"TStat", .ctype V2_6.TStat),
  (py!"GPU", .ctype V2_6.GPU),
  (py!"NET", .ctype V2_6.NET),
  (py!"MEM", .ctype V2_6.MEM),
  (py!"DSK", .ctype V2_6.DSK),
  (py!"CPU", .ctype V2_6.CPU),
  (py!"GEN", .ctype V2_6.GEN),
  (py!"SStat", .ctype V2_6.SStat),
  (py!"NETStat", .ctype V2_6.NETStat),
  (py!"UDPv6Stats", .ctype V2_6.UDPv6Stats),
  (py!"ICMPv6Stats", .ctype V2_6.ICMPv6Stats),
  (py!"IPv6Stats", .ctype V2_6.IPv6Stats),
  (py!"TCPStats", .ctype V2_6.TCPStats),
  (py!"UDPv4Stats", .ctype V2_6.UDPv4Stats),
  (py!"ICMPv4Stats", .ctype V2_6.ICMPv4Stats),
  (py!"IPv4Stats", .ctype V2_6.IPv4Stats),
  (py!"IFBStat", .ctype V2_6.IFBStat),
  (py!"PerIFB", .ctype V2_6.PerIFB),
  (py!"GPUStat", .ctype V2_6.GPUStat),
  (py!"PerGPU", .ctype V2_6.PerGPU),
  (py!"WWWStat", .ctype V2_6.WWWStat),
  (py!"ContStat", .ctype V2_6.ContStat),
  (py!"PerContainer", .ctype V2_6.PerContainer),
  (py!"Pressure", .ctype V2_6.Pressure),
  (py!"PSI", .ctype V2_6.PSI),
  (py!"NFSStat", .ctype V2_6.NFSStat),
  (py!"NFSMounts", .ctype V2_6.NFSMounts),
  (py!"Client", .ctype V2_6.Client),
  (py!"Server", .ctype V2_6.Server),
  (py!"PerNFSMount", .ctype V2_6.PerNFSMount),
  (py!"IntfStat", .ctype V2_6.IntfStat),
  (py!"PerIntf", .ctype V2_6.PerIntf),
  (py!"DSKStat", .ctype V2_6.DSKStat),
  (py!"PerDSK", .ctype V2_6.PerDSK),
  (py!"CPUStat", .ctype V2_6.CPUStat),
  (py!"PerCPU", .ctype V2_6.PerCPU),
  (py!"FreqCnt", .ctype V2_6.FreqCnt),
  (py!"MemStat", .ctype V2_6.MemStat),
  (py!"Record", .ctype V2_6.Record),
  (py!"MAXIBNAME", .int 12),
  (py!"MAXDKNAM", .int 32),
  (py!"MAXGPUTYPE", .int 12),
  (py!"MAXGPUBUS", .int 12),
  (py!"MAXGPU", .int 32),
  (py!"MAXIBPORT", .int 32),
  (py!"MAXNFSMOUNT", .int 64),
  (py!"MAXCONTAINER", .int 128),
  (py!"MAXINTF", .int 128),
  (py!"MAXMDD", .int 256),
  (py!"MAXLVM", .int 2048),
  (py!"MAXDSK", .int 1024),
  (py!"MAXCPU", .int 2048),
  (py!"CMDLEN", .int 255),
  (py!"PNAMLEN", .int 15),
  (py!"GPUSTAT", .int 128),
  (py!"DOCKSTAT", .int 64),
  (py!"NETATOPD", .int 32),
  (py!"NETATOP", .int 16),
  (py!"IOSTAT", .int 4),
  (py!"ACCTACTIVE", .int 1),
  (py!"count_t", .ctype count_t),
  (py!"atop_2_4", .mod py!"atoparser.structs.atop_2_4"),
  (py!"atop_2_3", .mod py!"atoparser.structs.atop_2_3"),
  (py!"atop_1_26", .mod py!"atoparser.structs.atop_1_26"),
  (py!"ctypes", .mod py!"ctypes")]

/-- atoparser/structs/atop_2_7.py -/
def v2_7 : Names := [
  (py!"Header", .hcls V2_7.Header),
  (py!"TStat", .ctype V2_7.TStat),
  (py!"GPU", .ctype V2_7.GPU),
  (py!"NET", .ctype V2_7.NET),
  (py!"MEM", .ctype V2_7.MEM),
  (py!"DSK", .ctype V2_7.DSK),
  (py!"CPU", .ctype V2_7.CPU),
  (py!"GEN", .ctype V2_7.GEN),
  (py!"SStat", .ctype V2_7.SStat),
  (py!"NETStat", .ctype V2_7.NETStat),
  (py!"UDPv6Stats", .ctype V2_7.UDPv6Stats),
  (py!"ICMPv6Stats", .ctype V2_7.ICMPv6Stats),
  (py!"IPv6Stats", .ctype V2_7.IPv6Stats),
  (py!"TCPStats", .ctype V2_7.TCPStats),
  (py!"UDPv4Stats", .ctype V2_7.UDPv4Stats),
  (py!"ICMPv4Stats", .ctype V2_7.ICMPv4Stats),
  (py!"IPv4Stats", .ctype V2_7.IPv4Stats),
  (py!"IFBStat", .ctype V2_7.IFBStat),
  (py!"PerIFB", .ctype V2_7.PerIFB),
  (py!"GPUStat", .ctype V2_7.GPUStat),
  (py!"PerGPU", .ctype V2_7.PerGPU),
  (py!"WWWStat", .ctype V2_7.WWWStat),
  (py!"ContStat", .ctype V2_7.ContStat),
  (py!"PerContainer", .ctype V2_7.PerContainer),
  (py!"Pressure", .ctype V2_7.Pressure),
  (py!"PSI", .ctype V2_7.PSI),
  (py!"NFSStat", .ctype V2_7.NFSStat),
  (py!"NFSMounts", .ctype V2_7.NFSMounts),
  (py!"Client", .ctype V2_7.Client),
  (py!"Server", .ctype V2_7.Server),
  (py!"PerNFSMount", .ctype V2_7.PerNFSMount),
  (py!"IntfStat", .ctype V2_7.IntfStat),
  (py!"PerIntf", .ctype V2_7.PerIntf),
  (py!"DSKStat", .ctype V2_7.DSKStat),
  (py!"PerDSK", .ctype V2_7.PerDSK),
  (py!"CPUStat", .ctype V2_7.CPUStat),
  (py!"PerCPU", .ctype V2_7.PerCPU),
  (py!"FreqCnt", .ctype V2_7.FreqCnt),
  (py!"CPUNUMA", .ctype V2_7.CPUNUMA),
  (py!"CPUPerNUMA", .ctype V2_7.CPUPerNUMA),
  (py!"MemNUMA", .ctype V2_7.MemNUMA),
  (py!"MemPerNUMA", .ctype V2_7.MemPerNUMA),
  (py!"MemStat", .ctype V2_7.MemStat),
  (py!"Record", .ctype V2_7.Record),
  (py!"MAXIBNAME", .int 12),
  (py!"MAXDKNAM", .int 32),
  (py!"MAXGPUTYPE", .int 12),
  (py!"MAXGPUBUS", .int 12),
  (py!"MAXGPU", .int 32),
  (py!"MAXIBPORT", .int 32),
  (py!"MAXNFSMOUNT", .int 64),
  (py!"MAXCONTAINER", .int 128),
  (py!"MAXINTF", .int 128),
  (py!"MAXMDD", .int 256),
  (py!"MAXLVM", .int 2048),
  (py!"MAXNUMA", .int 1024),
  (py!"MAXDSK", .int 1024),
  (py!"MAXCPU", .int 2048),
  (py!"CMDLEN", .int 255),
  (py!"PNAMLEN", .int 15),
  (py!"GPUSTAT", .int 128),
  (py!"DOCKSTAT", .int 64),
  (py!"NETATOPD", .int 32),
  (py!"NETATOP", .int 16),
  (py!"IOSTAT", .int 4),
  (py!"ACCTACTIVE", .int 1),
  (py!"count_t", .ctype count_t),
  (py!"atop_2_6", .mod py!"atoparser.structs.atop_2_6"),
  (py!"atop_2_4", .mod py!"atoparser.structs.atop_2_4"),
  (py!"atop_2_3", .mod py!"atoparser.structs.atop_2_3"),
  (py!"atop_1_26", .mod py!"atoparser.structs.atop_1_26"),
  (py!"ctypes", .mod py!"ctypes")]

/-- atoparser/structs/atop_2_8.py -/
def v2_8 : Names := [
  (py!"Header", .hcls V2_8.Header),
  (py!"TStat", .ctype V2_8.TStat),
  (py!"GPU", .ctype V2_8.GPU),
  (py!"NET", .ctype V2_8.NET),
  (py!"MEM", .ctype V2_8.MEM),
  (py!"DSK", .ctype V2_8.DSK),
  (py!"CPU", .ctype V2_8.CPU),
  (py!"GEN", .ctype V2_8.GEN),
  (py!"SStat", .ctype V2_8.SStat),
  (py!"NETStat", .ctype V2_8.NETStat),
  (py!"UDPv6Stats", .ctype V2_8.UDPv6Stats),
  (py!"ICMPv6Stats", .ctype V2_8.ICMPv6Stats),
  (py!"IPv6Stats", .ctype V2_8.IPv6Stats),
  (py!"TCPStats", .ctype V2_8.TCPStats),
  (py!"UDPv4Stats", .ctype V2_8.UDPv4Stats),
  (py!"ICMPv4Stats", .ctype V2_8.ICMPv4Stats),
  (py!"IPv4Stats", .ctype V2_8.IPv4Stats),
  (py!"LLCStat", .ctype V2_8.LLCStat),
  (py!"PerLLC", .ctype V2_8.PerLLC),
  (py!"IFBStat", .ctype V2_8.IFBStat),
  (py!"PerIFB", .ctype V2_8.PerIFB),
  (py!"GPUStat", .ctype V2_8.GPUStat),
  (py!"PerGPU", .ctype V2_8.PerGPU),
  (py!"WWWStat", .ctype V2_8.WWWStat),
  (py!"ContStat", .ctype V2_8.ContStat),
  (py!"PerContainer", .ctype V2_8.PerContainer),
  (py!"Pressure", .ctype V2_8.Pressure),
  (py!"PSI", .ctype V2_8.PSI),
  (py!"NFSStat", .ctype V2_8.NFSStat),
  (py!"NFSMounts", .ctype V2_8.NFSMounts),
  (py!"Client", .ctype V2_8.Client),
  (py!"Server", .ctype V2_8.Server),
  (py!"PerNFSMount", .ctype V2_8.PerNFSMount),
  (py!"IntfStat", .ctype V2_8.IntfStat),
  (py!"PerIntf", .ctype V2_8.PerIntf),
  (py!"DSKStat", .ctype V2_8.DSKStat),
  (py!"PerDSK", .ctype V2_8.PerDSK),
  (py!"CPUStat", .ctype V2_8.CPUStat),
  (py!"PerCPU", .ctype V2_8.PerCPU),
  (py!"FreqCnt", .ctype V2_8.FreqCnt),
  (py!"CPUNUMA", .ctype V2_8.CPUNUMA),
  (py!"CPUPerNUMA", .ctype V2_8.CPUPerNUMA),
  (py!"MemNUMA", .ctype V2_8.MemNUMA),
  (py!"MemPerNUMA", .ctype V2_8.MemPerNUMA),
  (py!"MemStat", .ctype V2_8.MemStat),
  (py!"Record", .ctype V2_8.Record),
  (py!"MAXIBNAME", .int 12),
  (py!"MAXDKNAM", .int 32),
  (py!"MAXLLC", .int 256),
  (py!"MAXGPUTYPE", .int 12),
  (py!"MAXGPUBUS", .int 12),
  (py!"MAXGPU", .int 32),
  (py!"MAXIBPORT", .int 32),
  (py!"MAXNFSMOUNT", .int 64),
  (py!"MAXCONTAINER", .int 128),
  (py!"MAXINTF", .int 128),
  (py!"MAXMDD", .int 256),
  (py!"MAXLVM", .int 2048),
  (py!"MAXNUMA", .int 1024),
  (py!"MAXDSK", .int 1024),
  (py!"MAXCPU", .int 2048),
  (py!"CGRLEN", .int 64),
  (py!"CMDLEN", .int 255),
  (py!"PNAMLEN", .int 15),
  (py!"CGROUPV2", .int 256),
  (py!"GPUSTAT", .int 128),
  (py!"DOCKSTAT", .int 64),
  (py!"NETATOPD", .int 32),
  (py!"NETATOP", .int 16),
  (py!"IOSTAT", .int 4),
  (py!"ACCTACTIVE", .int 1),
  (py!"time_t", .ctype time_t),
  (py!"count_t", .ctype count_t),
  (py!"UTSName", .ctype Shared.UTSName),
  (py!"HeaderMixin", .icls py!"HeaderMixin"),
  (py!"atop_2_7", .mod py!"atoparser.structs.atop_2_7"),
  (py!"atop_2_4", .mod py!"atoparser.structs.atop_2_4"),
  (py!"atop_2_3", .mod py!"atoparser.structs.atop_2_3"),
  (py!"atop_1_26", .mod py!"atoparser.structs.atop_1_26"),
  (py!"ctypes", .mod py!"ctypes")]

/-- atoparser/structs/atop_2_9.py -/
def v2_9 : Names := [
  (py!"Header", .hcls V2_9.Header),
  (py!"TStat", .ctype V2_9.TStat),
  (py!"GPU", .ctype V2_9.GPU),
  (py!"NET", .ctype V2_9.NET),
  (py!"MEM", .ctype V2_9.MEM),
  (py!"DSK", .ctype V2_9.DSK),
  (py!"CPU", .ctype V2_9.CPU),
  (py!"GEN", .ctype V2_9.GEN),
  (py!"SStat", .ctype V2_9.SStat),
  (py!"NETStat", .ctype V2_9.NETStat),
  (py!"UDPv6Stats", .ctype V2_9.UDPv6Stats),
  (py!"ICMPv6Stats", .ctype V2_9.ICMPv6Stats),
  (py!"IPv6Stats", .ctype V2_9.IPv6Stats),
  (py!"TCPStats", .ctype V2_9.TCPStats),
  (py!"UDPv4Stats", .ctype V2_9.UDPv4Stats),
  (py!"ICMPv4Stats", .ctype V2_9.ICMPv4Stats),
  (py!"IPv4Stats", .ctype V2_9.IPv4Stats),
  (py!"LLCStat", .ctype V2_9.LLCStat),
  (py!"PerLLC", .ctype V2_9.PerLLC),
  (py!"IFBStat", .ctype V2_9.IFBStat),
  (py!"PerIFB", .ctype V2_9.PerIFB),
  (py!"GPUStat", .ctype V2_9.GPUStat),
  (py!"PerGPU", .ctype V2_9.PerGPU),
  (py!"WWWStat", .ctype V2_9.WWWStat),
  (py!"ContStat", .ctype V2_9.ContStat),
  (py!"PerContainer", .ctype V2_9.PerContainer),
  (py!"Pressure", .ctype V2_9.Pressure),
  (py!"PSI", .ctype V2_9.PSI),
  (py!"NFSStat", .ctype V2_9.NFSStat),
  (py!"NFSMounts", .ctype V2_9.NFSMounts),
  (py!"Client", .ctype V2_9.Client),
  (py!"Server", .ctype V2_9.Server),
  (py!"PerNFSMount", .ctype V2_9.PerNFSMount),
  (py!"IntfStat", .ctype V2_9.IntfStat),
  (py!"PerIntf", .ctype V2_9.PerIntf),
  (py!"DSKStat", .ctype V2_9.DSKStat),
  (py!"PerDSK", .ctype V2_9.PerDSK),
  (py!"CPUStat", .ctype V2_9.CPUStat),
  (py!"PerCPU", .ctype V2_9.PerCPU),
  (py!"FreqCnt", .ctype V2_9.FreqCnt),
  (py!"CPUNUMA", .ctype V2_9.CPUNUMA),
  (py!"CPUPerNUMA", .ctype V2_9.CPUPerNUMA),
  (py!"MemNUMA", .ctype V2_9.MemNUMA),
  (py!"MemPerNUMA", .ctype V2_9.MemPerNUMA),
  (py!"MemStat", .ctype V2_9.MemStat),
  (py!"Record", .ctype V2_9.Record),
  (py!"MAXIBNAME", .int 12),
  (py!"MAXDKNAM", .int 32),
  (py!"MAXLLC", .int 256),
  (py!"MAXGPUTYPE", .int 12),
  (py!"MAXGPUBUS", .int 12),
  (py!"MAXGPU", .int 32),
  (py!"MAXIBPORT", .int 32),
  (py!"MAXNFSMOUNT", .int 64),
  (py!"MAXCONTAINER", .int 128),
  (py!"MAXINTF", .int 128),
  (py!"MAXMDD", .int 256),
  (py!"MAXLVM", .int 2048),
  (py!"MAXNUMA", .int 1024),
  (py!"MAXDSK", .int 1024),
  (py!"MAXCPU", .int 2048),
  (py!"CGRLEN", .int 64),
  (py!"CMDLEN", .int 255),
  (py!"PNAMLEN", .int 15),
  (py!"CGROUPV2", .int 256),
  (py!"GPUSTAT", .int 128),
  (py!"DOCKSTAT", .int 64),
  (py!"NETATOPD", .int 32),
  (py!"NETATOP", .int 16),
  (py!"IOSTAT", .int 4),
  (py!"ACCTACTIVE", .int 1),
  (py!"count_t", .ctype count_t),
  (py!"atop_2_8", .mod py!"atoparser.structs.atop_2_8"),
  (py!"atop_2_7", .mod py!"atoparser.structs.atop_2_7"),
  (py!"atop_2_4", .mod py!"atoparser.structs.atop_2_4"),
  (py!"atop_2_3", .mod py!"atoparser.structs.atop_2_3"),
  (py!"atop_1_26", .mod py!"atoparser.structs.atop_1_26"),
  (py!"ctypes", .mod py!"ctypes")]

/-- atoparser/structs/atop_2_10.py -/
def v2_10 : Names := [
  (py!"Header", .hcls V2_10.Header),
  (py!"TStat", .ctype V2_10.TStat),
  (py!"GPU", .ctype V2_10.GPU),
  (py!"NET", .ctype V2_10.NET),
  (py!"MEM", .ctype V2_10.MEM),
  (py!"DSK", .ctype V2_10.DSK),
  (py!"CPU", .ctype V2_10.CPU),
  (py!"GEN", .ctype V2_10.GEN),
  (py!"SStat", .ctype V2_10.SStat),
  (py!"NETStat", .ctype V2_10.NETStat),
  (py!"UDPv6Stats", .ctype V2_10.UDPv6Stats),
  (py!"ICMPv6Stats", .ctype V2_10.ICMPv6Stats),
  (py!"IPv6Stats", .ctype V2_10.IPv6Stats),
  (py!"TCPStats", .ctype V2_10.TCPStats),
  (py!"UDPv4Stats", .ctype V2_10.UDPv4Stats),
  (py!"ICMPv4Stats", .ctype V2_10.ICMPv4Stats),
  (py!"IPv4Stats", .ctype V2_10.IPv4Stats),
  (py!"LLCStat", .ctype V2_10.LLCStat),
  (py!"PerLLC", .ctype V2_10.PerLLC),
  (py!"IFBStat", .ctype V2_10.IFBStat),
  (py!"PerIFB", .ctype V2_10.PerIFB),
  (py!"GPUStat", .ctype V2_10.GPUStat),
  (py!"PerGPU", .ctype V2_10.PerGPU),
  (py!"WWWStat", .ctype V2_10.WWWStat),
  (py!"ContStat", .ctype V2_10.ContStat),
  (py!"PerContainer", .ctype V2_10.PerContainer),
  (py!"Pressure", .ctype V2_10.Pressure),
  (py!"PSI", .ctype V2_10.PSI),
  (py!"NFSStat", .ctype V2_10.NFSStat),
  (py!"NFSMounts", .ctype V2_10.NFSMounts),
  (py!"Client", .ctype V2_10.Client),
  (py!"Server", .ctype V2_10.Server),
  (py!"PerNFSMount", .ctype V2_10.PerNFSMount),
  (py!"IntfStat", .ctype V2_10.IntfStat),
  (py!"PerIntf", .ctype V2_10.PerIntf),
  (py!"DSKStat", .ctype V2_10.DSKStat),
  (py!"PerDSK", .ctype V2_10.PerDSK),
  (py!"CPUStat", .ctype V2_10.CPUStat),
  (py!"PerCPU", .ctype V2_10.PerCPU),
  (py!"FreqCnt", .ctype V2_10.FreqCnt),
  (py!"CPUNUMA", .ctype V2_10.CPUNUMA),
  (py!"CPUPerNUMA", .ctype V2_10.CPUPerNUMA),
  (py!"MemNUMA", .ctype V2_10.MemNUMA),
  (py!"MemPerNUMA", .ctype V2_10.MemPerNUMA),
  (py!"MemStat", .ctype V2_10.MemStat),
  (py!"Record", .ctype V2_10.Record),
  (py!"MAXIBNAME", .int 12),
  (py!"MAXDKNAM", .int 32),
  (py!"MAXLLC", .int 256),
  (py!"MAXGPUTYPE", .int 12),
  (py!"MAXGPUBUS", .int 12),
  (py!"MAXGPU", .int 32),
  (py!"MAXIBPORT", .int 32),
  (py!"MAXNFSMOUNT", .int 64),
  (py!"MAXCONTAINER", .int 128),
  (py!"MAXINTF", .int 128),
  (py!"MAXMDD", .int 256),
  (py!"MAXLVM", .int 2048),
  (py!"MAXNUMA", .int 1024),
  (py!"MAXDSK", .int 1024),
  (py!"MAXCPU", .int 2048),
  (py!"UTSLEN", .int 15),
  (py!"CGRLEN", .int 64),
  (py!"CMDLEN", .int 255),
  (py!"PNAMLEN", .int 15),
  (py!"NETATOPBPF", .int 4096),
  (py!"CGROUPV2", .int 256),
  (py!"GPUSTAT", .int 128),
  (py!"CONTAINERSTAT", .int 64),
  (py!"NETATOPD", .int 32),
  (py!"NETATOP", .int 16),
  (py!"IOSTAT", .int 4),
  (py!"ACCTACTIVE", .int 1),
  (py!"time_t", .ctype time_t),
  (py!"count_t", .ctype count_t),
  (py!"atop_2_8", .mod py!"atoparser.structs.atop_2_8"),
  (py!"atop_2_7", .mod py!"atoparser.structs.atop_2_7"),
  (py!"atop_2_4", .mod py!"atoparser.structs.atop_2_4"),
  (py!"atop_2_3", .mod py!"atoparser.structs.atop_2_3"),
  (py!"atop_1_26", .mod py!"atoparser.structs.atop_1_26"),
  (py!"ctypes", .mod py!"ctypes")]

/-- atoparser/structs/atop_2_11.py -/
def v2_11 : Names := [
  (py!"Header", .hcls V2_11.Header),
  (py!"CGChainer", .icls py!"CGChainer"),
  (py!"CStat", .ctype V2_11.CStat),
  (py!"CGDSK", .ctype V2_11.CGDSK),
  (py!"CGMem", .ctype V2_11.CGMem),
  (py!"CGCPU", .ctype V2_11.CGCPU),
  (py!"CGConf", .ctype V2_11.CGConf),
  (py!"CGGen", .ctype V2_11.CGGen),
  (py!"TStat", .ctype V2_11.TStat),
  (py!"GPU", .ctype V2_11.GPU),
  (py!"NET", .ctype V2_11.NET),
  (py!"MEM", .ctype V2_11.MEM),
  (py!"DSK", .ctype V2_11.DSK),
  (py!"CPU", .ctype V2_11.CPU),
  (py!"GEN", .ctype V2_11.GEN),
  (py!"SStat", .ctype V2_11.SStat),
  (py!"NETStat", .ctype V2_11.NETStat),
  (py!"UDPv6Stats", .ctype V2_11.UDPv6Stats),
  (py!"ICMPv6Stats", .ctype V2_11.ICMPv6Stats),
  (py!"IPv6Stats", .ctype V2_11.IPv6Stats),
  (py!"TCPStats", .ctype V2_11.TCPStats),
  (py!"UDPv4Stats", .ctype V2_11.UDPv4Stats),
  (py!"ICMPv4Stats", .ctype V2_11.ICMPv4Stats),
  (py!"IPv4Stats", .ctype V2_11.IPv4Stats),
  (py!"LLCStat", .ctype V2_11.LLCStat),
  (py!"PerLLC", .ctype V2_11.PerLLC),
  (py!"IFBStat", .ctype V2_11.IFBStat),
  (py!"PerIFB", .ctype V2_11.PerIFB),
  (py!"GPUStat", .ctype V2_11.GPUStat),
  (py!"PerGPU", .ctype V2_11.PerGPU),
  (py!"WWWStat", .ctype V2_11.WWWStat),
  (py!"ContStat", .ctype V2_11.ContStat),
  (py!"PerContainer", .ctype V2_11.PerContainer),
  (py!"Pressure", .ctype V2_11.Pressure),
  (py!"PSI", .ctype V2_11.PSI),
  (py!"NFSStat", .ctype V2_11.NFSStat),
  (py!"NFSMounts", .ctype V2_11.NFSMounts),
  (py!"Client", .ctype V2_11.Client),
  (py!"Server", .ctype V2_11.Server),
  (py!"PerNFSMount", .ctype V2_11.PerNFSMount),
  (py!"IntfStat", .ctype V2_11.IntfStat),
  (py!"PerIntf", .ctype V2_11.PerIntf),
  (py!"DSKStat", .ctype V2_11.DSKStat),
  (py!"PerDSK", .ctype V2_11.PerDSK),
  (py!"CPUStat", .ctype V2_11.CPUStat),
  (py!"PerCPU", .ctype V2_11.PerCPU),
  (py!"FreqCnt", .ctype V2_11.FreqCnt),
  (py!"CPUNUMA", .ctype V2_11.CPUNUMA),
  (py!"CPUPerNUMA", .ctype V2_11.CPUPerNUMA),
  (py!"MemNUMA", .ctype V2_11.MemNUMA),
  (py!"MemPerNUMA", .ctype V2_11.MemPerNUMA),
  (py!"MemStat", .ctype V2_11.MemStat),
  (py!"Record", .ctype V2_11.Record),
  (py!"MAXIBNAME", .int 12),
  (py!"MAXDKNAM", .int 32),
  (py!"MAXLLC", .int 256),
  (py!"MAXGPUTYPE", .int 12),
  (py!"MAXGPUBUS", .int 12),
  (py!"MAXGPU", .int 32),
  (py!"MAXIBPORT", .int 32),
  (py!"MAXNFSMOUNT", .int 64),
  (py!"MAXCONTAINER", .int 128),
  (py!"MAXINTF", .int 128),
  (py!"MAXMDD", .int 256),
  (py!"MAXLVM", .int 2048),
  (py!"MAXNUMA", .int 1024),
  (py!"MAXDSK", .int 1024),
  (py!"MAXCPU", .int 2048),
  (py!"UTSLEN", .int 15),
  (py!"CGRLEN", .int 64),
  (py!"CMDLEN", .int 255),
  (py!"PNAMLEN", .int 15),
  (py!"NETATOPBPF", .int 4096),
  (py!"CGROUPV2", .int 256),
  (py!"GPUSTAT", .int 128),
  (py!"CONTAINERSTAT", .int 64),
  (py!"NETATOPD", .int 32),
  (py!"NETATOP", .int 16),
  (py!"IOSTAT", .int 4),
  (py!"ACCTACTIVE", .int 1),
  (py!"time_t", .ctype time_t),
  (py!"pid_t", .ctype pid_t),
  (py!"count_t", .ctype count_t),
  (py!"UTSName", .ctype Shared.UTSName),
  (py!"HeaderMixin", .icls py!"HeaderMixin"),
  (py!"atop_2_10", .mod py!"atoparser.structs.atop_2_10"),
  (py!"atop_2_8", .mod py!"atoparser.structs.atop_2_8"),
  (py!"atop_2_7", .mod py!"atoparser.structs.atop_2_7"),
  (py!"atop_2_4", .mod py!"atoparser.structs.atop_2_4"),
  (py!"atop_2_3", .mod py!"atoparser.structs.atop_2_3"),
  (py!"atop_1_26", .mod py!"atoparser.structs.atop_1_26"),
  (py!"ctypes", .mod py!"ctypes")]

/-- atoparser/structs/atop_2_12.py -/
def v2_12 : Names := [
  (py!"Header", .hcls V2_12.Header),
  (py!"CGChainer", .icls py!"CGChainer"),
  (py!"CStat", .ctype V2_12.CStat),
  (py!"CGDSK", .ctype V2_12.CGDSK),
  (py!"CGMem", .ctype V2_12.CGMem),
  (py!"CGCPU", .ctype V2_12.CGCPU),
  (py!"CGConf", .ctype V2_12.CGConf),
  (py!"CGGen", .ctype V2_12.CGGen),
  (py!"TStat", .ctype V2_12.TStat),
  (py!"GPU", .ctype V2_12.GPU),
  (py!"NET", .ctype V2_12.NET),
  (py!"MEM", .ctype V2_12.MEM),
  (py!"DSK", .ctype V2_12.DSK),
  (py!"CPU", .ctype V2_12.CPU),
  (py!"GEN", .ctype V2_12.GEN),
  (py!"SStat", .ctype V2_12.SStat),
  (py!"NETStat", .ctype V2_12.NETStat),
  (py!"UDPv6Stats", .ctype V2_12.UDPv6Stats),
  (py!"ICMPv6Stats", .ctype V2_12.ICMPv6Stats),
  (py!"IPv6Stats", .ctype V2_12.IPv6Stats),
  (py!"TCPStats", .ctype V2_12.TCPStats),
  (py!"UDPv4Stats", .ctype V2_12.UDPv4Stats),
  (py!"ICMPv4Stats", .ctype V2_12.ICMPv4Stats),
  (py!"IPv4Stats", .ctype V2_12.IPv4Stats),
  (py!"LLCStat", .ctype V2_12.LLCStat),
  (py!"PerLLC", .ctype V2_12.PerLLC),
  (py!"IFBStat", .ctype V2_12.IFBStat),
  (py!"PerIFB", .ctype V2_12.PerIFB),
  (py!"GPUStat", .ctype V2_12.GPUStat),
  (py!"PerGPU", .ctype V2_12.PerGPU),
  (py!"WWWStat", .ctype V2_12.WWWStat),
  (py!"ContStat", .ctype V2_12.ContStat),
  (py!"PerContainer", .ctype V2_12.PerContainer),
  (py!"Pressure", .ctype V2_12.Pressure),
  (py!"PSI", .ctype V2_12.PSI),
  (py!"NFSStat", .ctype V2_12.NFSStat),
  (py!"NFSMounts", .ctype V2_12.NFSMounts),
  (py!"Client", .ctype V2_12.Client),
  (py!"Server", .ctype V2_12.Server),
  (py!"PerNFSMount", .ctype V2_12.PerNFSMount),
  (py!"IntfStat", .ctype V2_12.IntfStat),
  (py!"PerIntf", .ctype V2_12.PerIntf),
  (py!"DSKStat", .ctype V2_12.DSKStat),
  (py!"PerDSK", .ctype V2_12.PerDSK),
  (py!"CPUStat", .ctype V2_12.CPUStat),
  (py!"PerCPU", .ctype V2_12.PerCPU),
  (py!"FreqCnt", .ctype V2_12.FreqCnt),
  (py!"CPUNUMA", .ctype V2_12.CPUNUMA),
  (py!"CPUPerNUMA", .ctype V2_12.CPUPerNUMA),
  (py!"MemNUMA", .ctype V2_12.MemNUMA),
  (py!"MemPerNUMA", .ctype V2_12.MemPerNUMA),
  (py!"MemStat", .ctype V2_12.MemStat),
  (py!"Record", .ctype V2_12.Record),
  (py!"MAXIBNAME", .int 12),
  (py!"MAXDKNAM", .int 32),
  (py!"MAXLLC", .int 256),
  (py!"MAXGPUTYPE", .int 12),
  (py!"MAXGPUBUS", .int 12),
  (py!"MAXGPU", .int 32),
  (py!"MAXIBPORT", .int 32),
  (py!"MAXNFSMOUNT", .int 64),
  (py!"MAXCONTAINER", .int 128),
  (py!"MAXINTF", .int 128),
  (py!"MAXMDD", .int 256),
  (py!"MAXLVM", .int 2048),
  (py!"MAXNUMA", .int 1024),
  (py!"MAXDSK", .int 1024),
  (py!"MAXCPU", .int 2048),
  (py!"UTSLEN", .int 15),
  (py!"CGRLEN", .int 64),
  (py!"CMDLEN", .int 255),
  (py!"PNAMLEN", .int 15),
  (py!"NETATOPBPF", .int 4096),
  (py!"CGROUPV2", .int 256),
  (py!"GPUSTAT", .int 128),
  (py!"CONTAINERSTAT", .int 64),
  (py!"NETATOPD", .int 32),
  (py!"NETATOP", .int 16),
  (py!"IOSTAT", .int 4),
  (py!"ACCTACTIVE", .int 1),
  (py!"HeaderMixin", .icls py!"HeaderMixin"),
  (py!"atop_2_11", .mod py!"atoparser.structs.atop_2_11"),
  (py!"atop_2_10", .mod py!"atoparser.structs.atop_2_10"),
  (py!"atop_2_8", .mod py!"atoparser.structs.atop_2_8"),
  (py!"atop_2_7", .mod py!"atoparser.structs.atop_2_7"),
  (py!"atop_2_4", .mod py!"atoparser.structs.atop_2_4"),
  (py!"atop_2_3", .mod py!"atoparser.structs.atop_2_3"),
  (py!"atop_1_26", .mod py!"atoparser.structs.atop_1_26"),
  (py!"ctypes", .mod py!"ctypes")]

end Atop.Src.Tables
