/-
Concrete configurations used by the `example`s beside the theorems.
-/
import Verif.Model.Node

namespace Vscp.Ex

/-- A configuration close to the defaults of src/vscp_config.h and src/vscp_dev_data_config.h: loopback, segment
and node heartbeat, decision matrix and logger are switched on. -/
def ctx : Ctx where
  hardCoded := false
  bootLoader := true
  hbSegment := true
  hbNode := true
  customHb := false
  silent := false
  protoNotify := false
  idleCallout := true
  errorCallout := true
  segTimeCallout := true
  loopback := true
  logger := true
  dm := true
  dmExt := false
  dmPaged := false
  dmNg := true
  loopbackNum := 4
  startProbe := 1
  initTimeout := 1000
  probeAckTimeout := 2000
  multiTimeout := 1000
  hbPeriod := 30000
  dmRows := 10
  dmPage := 1
  dmOffset := 0
  ngPage := 2
  ngSize := 80
  familyEn := true
  guidPs := true
  guidExt := false
  zonePs := true
  subZonePs := true
  manuPs := true
  manuSubPs := false
  mdfPs := true
  famPs := true
  typePs := true
  guid := #v[1, 2, 3, 4, 5, 6, 7, 8, 9, 10, 11, 12, 13, 14, 15, 16]
  zone := 3
  subZone := 4
  manu := 0x11223344
  manuSub := 0x55667788
  mdfUrl := [97, 98, 99, 46, 100, 101]
  verMajor := 1
  verMinor := 2
  verSubMinor := 3
  famCode := 0x01020304
  devType := 0x05060708
  fwDevCode := 0x0A0B
  littleEndian := true
  sizeofMsg := 16
  txOk := fun _ => true
  appRead := fun n _ _ _ => BitVec.ofNat 8 (n + 1)
  appWrite := fun _ _ _ _ _ => 0x5A
  appZone := fun _ page addr v => if page = 7 ∧ addr = 0 then some v else none
  appSubZone := fun _ page addr v => if page = 7 ∧ addr = 1 then some v else none
  protoHandled := fun _ => false
  bootAlgo := 1
  pagesUsed := 3
  extGuid := fun _ => 0
  garbage := fun _ => 0

/-- An event. -/
def msg (cls : U16) (typ oAddr : U8) (data : List U8) : Msg :=
  ⟨3, cls, typ, oAddr, false, BitVec.ofNat 8 data.length, bytes8 data⟩

end Vscp.Ex
