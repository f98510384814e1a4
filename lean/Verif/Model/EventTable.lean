/-
The send functions of src/events.  Generated by tools/gen_events.py from src/events/*.c, src/vscp_class_l1.h and src/vscp_type_*.h; do not edit.
-/
import Verif.Model.Events

namespace Vscp.Events.Table

/-- src/events/vscp_evt_alarm.c: all send functions -/
def alarm : List Fn := [
  /- src/events/vscp_evt_alarm.c:79-88 `vscp_evt_alarm_sendGeneralEvent` -/
  ⟨"alarm_sendGeneralEvent", 1, 0, [], []⟩,
  /- src/events/vscp_evt_alarm.c:99-118 `vscp_evt_alarm_sendWarning` -/
  ⟨"alarm_sendWarning", 1, 1, [.u8, .u8, .u8], [.byte 0 0 0, .size 1, .byte 1 1 0, .size 1, .byte 2 2 0, .size 1]⟩,
  /- src/events/vscp_evt_alarm.c:130-149 `vscp_evt_alarm_sendAlarmOccurred` -/
  ⟨"alarm_sendAlarmOccurred", 1, 2, [.u8, .u8, .u8], [.byte 0 0 0, .size 1, .byte 1 1 0, .size 1, .byte 2 2 0, .size 1]⟩,
  /- src/events/vscp_evt_alarm.c:160-179 `vscp_evt_alarm_sendAlarmSoundOnOff` -/
  ⟨"alarm_sendAlarmSoundOnOff", 1, 3, [.u8, .u8, .u8], [.byte 0 0 0, .size 1, .byte 1 1 0, .size 1, .byte 2 2 0, .size 1]⟩,
  /- src/events/vscp_evt_alarm.c:190-209 `vscp_evt_alarm_sendAlarmLightOnOff` -/
  ⟨"alarm_sendAlarmLightOnOff", 1, 4, [.u8, .u8, .u8], [.byte 0 0 0, .size 1, .byte 1 1 0, .size 1, .byte 2 2 0, .size 1]⟩,
  /- src/events/vscp_evt_alarm.c:220-239 `vscp_evt_alarm_sendPowerOnOff` -/
  ⟨"alarm_sendPowerOnOff", 1, 5, [.u8, .u8, .u8], [.byte 0 0 0, .size 1, .byte 1 1 0, .size 1, .byte 2 2 0, .size 1]⟩,
  /- src/events/vscp_evt_alarm.c:250-269 `vscp_evt_alarm_sendEmergencyStop` -/
  ⟨"alarm_sendEmergencyStop", 1, 6, [.u8, .u8, .u8], [.byte 0 0 0, .size 1, .byte 1 1 0, .size 1, .byte 2 2 0, .size 1]⟩,
  /- src/events/vscp_evt_alarm.c:280-299 `vscp_evt_alarm_sendEmergencyPause` -/
  ⟨"alarm_sendEmergencyPause", 1, 7, [.u8, .u8, .u8], [.byte 0 0 0, .size 1, .byte 1 1 0, .size 1, .byte 2 2 0, .size 1]⟩,
  /- src/events/vscp_evt_alarm.c:310-329 `vscp_evt_alarm_sendEmergencyReset` -/
  ⟨"alarm_sendEmergencyReset", 1, 8, [.u8, .u8, .u8], [.byte 0 0 0, .size 1, .byte 1 1 0, .size 1, .byte 2 2 0, .size 1]⟩,
  /- src/events/vscp_evt_alarm.c:340-359 `vscp_evt_alarm_sendEmergencyResume` -/
  ⟨"alarm_sendEmergencyResume", 1, 9, [.u8, .u8, .u8], [.byte 0 0 0, .size 1, .byte 1 1 0, .size 1, .byte 2 2 0, .size 1]⟩,
  /- src/events/vscp_evt_alarm.c:370-389 `vscp_evt_alarm_sendArm` -/
  ⟨"alarm_sendArm", 1, 10, [.u8, .u8, .u8], [.byte 0 0 0, .size 1, .byte 1 1 0, .size 1, .byte 2 2 0, .size 1]⟩,
  /- src/events/vscp_evt_alarm.c:400-419 `vscp_evt_alarm_sendDisarm` -/
  ⟨"alarm_sendDisarm", 1, 11, [.u8, .u8, .u8], [.byte 0 0 0, .size 1, .byte 1 1 0, .size 1, .byte 2 2 0, .size 1]⟩,
  /- src/events/vscp_evt_alarm.c:430-449 `vscp_evt_alarm_sendWatchdog` -/
  ⟨"alarm_sendWatchdog", 1, 12, [.u8, .u8, .u8], [.byte 0 0 0, .size 1, .byte 1 1 0, .size 1, .byte 2 2 0, .size 1]⟩,
  /- src/events/vscp_evt_alarm.c:461-480 `vscp_evt_alarm_sendAlarmReset` -/
  ⟨"alarm_sendAlarmReset", 1, 13, [.u8, .u8, .u8], [.byte 0 0 0, .size 1, .byte 1 1 0, .size 1, .byte 2 2 0, .size 1]⟩]

/-- src/events/vscp_evt_aol.c: all send functions -/
def aol : List Fn := [
  /- src/events/vscp_evt_aol.c:79-88 `vscp_evt_aol_sendGeneralEvent` -/
  ⟨"aol_sendGeneralEvent", 50, 0, [], []⟩,
  /- src/events/vscp_evt_aol.c:99-118 `vscp_evt_aol_sendSystemUnpluggedFromPowerSource` -/
  ⟨"aol_sendSystemUnpluggedFromPowerSource", 50, 1, [.u8, .u8, .u8], [.byte 0 0 0, .size 1, .byte 1 1 0, .size 1, .byte 2 2 0, .size 1]⟩,
  /- src/events/vscp_evt_aol.c:129-148 `vscp_evt_aol_sendSystemUnpluggedFromNetwork` -/
  ⟨"aol_sendSystemUnpluggedFromNetwork", 50, 2, [.u8, .u8, .u8], [.byte 0 0 0, .size 1, .byte 1 1 0, .size 1, .byte 2 2 0, .size 1]⟩,
  /- src/events/vscp_evt_aol.c:159-178 `vscp_evt_aol_sendChassisIntrusion` -/
  ⟨"aol_sendChassisIntrusion", 50, 3, [.u8, .u8, .u8], [.byte 0 0 0, .size 1, .byte 1 1 0, .size 1, .byte 2 2 0, .size 1]⟩,
  /- src/events/vscp_evt_aol.c:189-208 `vscp_evt_aol_sendProcessorRemoval` -/
  ⟨"aol_sendProcessorRemoval", 50, 4, [.u8, .u8, .u8], [.byte 0 0 0, .size 1, .byte 1 1 0, .size 1, .byte 2 2 0, .size 1]⟩,
  /- src/events/vscp_evt_aol.c:219-238 `vscp_evt_aol_sendSystemEnvironmentalErrors` -/
  ⟨"aol_sendSystemEnvironmentalErrors", 50, 5, [.u8, .u8, .u8], [.byte 0 0 0, .size 1, .byte 1 1 0, .size 1, .byte 2 2 0, .size 1]⟩,
  /- src/events/vscp_evt_aol.c:249-268 `vscp_evt_aol_sendHighTemperature` -/
  ⟨"aol_sendHighTemperature", 50, 6, [.u8, .u8, .u8], [.byte 0 0 0, .size 1, .byte 1 1 0, .size 1, .byte 2 2 0, .size 1]⟩,
  /- src/events/vscp_evt_aol.c:279-298 `vscp_evt_aol_sendFanSpeedProblem` -/
  ⟨"aol_sendFanSpeedProblem", 50, 7, [.u8, .u8, .u8], [.byte 0 0 0, .size 1, .byte 1 1 0, .size 1, .byte 2 2 0, .size 1]⟩,
  /- src/events/vscp_evt_aol.c:309-328 `vscp_evt_aol_sendVoltageFluctuations` -/
  ⟨"aol_sendVoltageFluctuations", 50, 8, [.u8, .u8, .u8], [.byte 0 0 0, .size 1, .byte 1 1 0, .size 1, .byte 2 2 0, .size 1]⟩,
  /- src/events/vscp_evt_aol.c:339-358 `vscp_evt_aol_sendOperatingSystemErrors` -/
  ⟨"aol_sendOperatingSystemErrors", 50, 9, [.u8, .u8, .u8], [.byte 0 0 0, .size 1, .byte 1 1 0, .size 1, .byte 2 2 0, .size 1]⟩,
  /- src/events/vscp_evt_aol.c:369-388 `vscp_evt_aol_sendSystemPowerOnError` -/
  ⟨"aol_sendSystemPowerOnError", 50, 10, [.u8, .u8, .u8], [.byte 0 0 0, .size 1, .byte 1 1 0, .size 1, .byte 2 2 0, .size 1]⟩,
  /- src/events/vscp_evt_aol.c:399-418 `vscp_evt_aol_sendSystemIsHung` -/
  ⟨"aol_sendSystemIsHung", 50, 11, [.u8, .u8, .u8], [.byte 0 0 0, .size 1, .byte 1 1 0, .size 1, .byte 2 2 0, .size 1]⟩,
  /- src/events/vscp_evt_aol.c:429-448 `vscp_evt_aol_sendComponentFailure` -/
  ⟨"aol_sendComponentFailure", 50, 12, [.u8, .u8, .u8], [.byte 0 0 0, .size 1, .byte 1 1 0, .size 1, .byte 2 2 0, .size 1]⟩,
  /- src/events/vscp_evt_aol.c:459-478 `vscp_evt_aol_sendRemoteSystemRebootUponReportOfACriticalFailure` -/
  ⟨"aol_sendRemoteSystemRebootUponReportOfACriticalFailure", 50, 13, [.u8, .u8, .u8], [.byte 0 0 0, .size 1, .byte 1 1 0, .size 1, .byte 2 2 0, .size 1]⟩,
  /- src/events/vscp_evt_aol.c:489-508 `vscp_evt_aol_sendRepairOperatingSystem` -/
  ⟨"aol_sendRepairOperatingSystem", 50, 14, [.u8, .u8, .u8], [.byte 0 0 0, .size 1, .byte 1 1 0, .size 1, .byte 2 2 0, .size 1]⟩,
  /- src/events/vscp_evt_aol.c:519-538 `vscp_evt_aol_sendUpdateBiosImage` -/
  ⟨"aol_sendUpdateBiosImage", 50, 15, [.u8, .u8, .u8], [.byte 0 0 0, .size 1, .byte 1 1 0, .size 1, .byte 2 2 0, .size 1]⟩,
  /- src/events/vscp_evt_aol.c:549-568 `vscp_evt_aol_sendUpdatePerformOtherDiagnosticProcedures` -/
  ⟨"aol_sendUpdatePerformOtherDiagnosticProcedures", 50, 16, [.u8, .u8, .u8], [.byte 0 0 0, .size 1, .byte 1 1 0, .size 1, .byte 2 2 0, .size 1]⟩]

/-- src/events/vscp_evt_configuration.c: all send functions -/
def configuration : List Fn := [
  /- src/events/vscp_evt_configuration.c:79-88 `vscp_evt_configuration_sendGeneralEvent` -/
  ⟨"configuration_sendGeneralEvent", 120, 0, [], []⟩,
  /- src/events/vscp_evt_configuration.c:101-130 `vscp_evt_configuration_sendLoadConfiguration` -/
  ⟨"configuration_sendLoadConfiguration", 120, 1, [.u8, .u8, .u8, .u16, .opt8], [.byte 0 0 0, .size 1, .byte 1 1 0, .size 1, .byte 2 2 0, .size 1, .byte 3 3 8, .byte 4 3 0, .size 2, .opt 4 [(5, 0)] 1]⟩,
  /- src/events/vscp_evt_configuration.c:139-153 `vscp_evt_configuration_sendLoadConfigurationAcknowledge` -/
  ⟨"configuration_sendLoadConfigurationAcknowledge", 120, 2, [.u16], [.byte 0 0 8, .byte 1 0 0, .size 2]⟩,
  /- src/events/vscp_evt_configuration.c:162-176 `vscp_evt_configuration_sendLoadConfigurationNegativeAcknowledge` -/
  ⟨"configuration_sendLoadConfigurationNegativeAcknowledge", 120, 3, [.u16], [.byte 0 0 8, .byte 1 0 0, .size 2]⟩,
  /- src/events/vscp_evt_configuration.c:189-218 `vscp_evt_configuration_sendSaveConfiguration` -/
  ⟨"configuration_sendSaveConfiguration", 120, 4, [.u8, .u8, .u8, .u16, .opt8], [.byte 0 0 0, .size 1, .byte 1 1 0, .size 1, .byte 2 2 0, .size 1, .byte 3 3 8, .byte 4 3 0, .size 2, .opt 4 [(5, 0)] 1]⟩,
  /- src/events/vscp_evt_configuration.c:227-241 `vscp_evt_configuration_sendSaveConfigurationAcknowledge` -/
  ⟨"configuration_sendSaveConfigurationAcknowledge", 120, 5, [.u16], [.byte 0 0 8, .byte 1 0 0, .size 2]⟩,
  /- src/events/vscp_evt_configuration.c:250-264 `vscp_evt_configuration_sendSaveConfigurationNegativeAcknowledge` -/
  ⟨"configuration_sendSaveConfigurationNegativeAcknowledge", 120, 6, [.u16], [.byte 0 0 8, .byte 1 0 0, .size 2]⟩,
  /- src/events/vscp_evt_configuration.c:277-306 `vscp_evt_configuration_sendCommitConfiguration` -/
  ⟨"configuration_sendCommitConfiguration", 120, 7, [.u8, .u8, .u8, .u16, .opt8], [.byte 0 0 0, .size 1, .byte 1 1 0, .size 1, .byte 2 2 0, .size 1, .byte 3 3 8, .byte 4 3 0, .size 2, .opt 4 [(5, 0)] 1]⟩,
  /- src/events/vscp_evt_configuration.c:315-329 `vscp_evt_configuration_sendCommitConfigurationAcknowledge` -/
  ⟨"configuration_sendCommitConfigurationAcknowledge", 120, 8, [.u16], [.byte 0 0 8, .byte 1 0 0, .size 2]⟩,
  /- src/events/vscp_evt_configuration.c:338-352 `vscp_evt_configuration_sendCommitConfigurationNegativeAcknowledge` -/
  ⟨"configuration_sendCommitConfigurationNegativeAcknowledge", 120, 9, [.u16], [.byte 0 0 8, .byte 1 0 0, .size 2]⟩,
  /- src/events/vscp_evt_configuration.c:365-394 `vscp_evt_configuration_sendReloadConfiguration` -/
  ⟨"configuration_sendReloadConfiguration", 120, 10, [.u8, .u8, .u8, .u16, .opt8], [.byte 0 0 0, .size 1, .byte 1 1 0, .size 1, .byte 2 2 0, .size 1, .byte 3 3 8, .byte 4 3 0, .size 2, .opt 4 [(5, 0)] 1]⟩,
  /- src/events/vscp_evt_configuration.c:403-417 `vscp_evt_configuration_sendReloadConfigurationAcknowledge` -/
  ⟨"configuration_sendReloadConfigurationAcknowledge", 120, 11, [.u16], [.byte 0 0 8, .byte 1 0 0, .size 2]⟩,
  /- src/events/vscp_evt_configuration.c:426-440 `vscp_evt_configuration_sendReloadConfigurationNegativeAcknowledge` -/
  ⟨"configuration_sendReloadConfigurationNegativeAcknowledge", 120, 12, [.u16], [.byte 0 0 8, .byte 1 0 0, .size 2]⟩,
  /- src/events/vscp_evt_configuration.c:453-482 `vscp_evt_configuration_sendRestoreConfiguration` -/
  ⟨"configuration_sendRestoreConfiguration", 120, 13, [.u8, .u8, .u8, .u16, .opt8], [.byte 0 0 0, .size 1, .byte 1 1 0, .size 1, .byte 2 2 0, .size 1, .byte 3 3 8, .byte 4 3 0, .size 2, .opt 4 [(5, 0)] 1]⟩,
  /- src/events/vscp_evt_configuration.c:491-505 `vscp_evt_configuration_sendRestoreConfigurationAcknowledge` -/
  ⟨"configuration_sendRestoreConfigurationAcknowledge", 120, 14, [.u16], [.byte 0 0 8, .byte 1 0 0, .size 2]⟩,
  /- src/events/vscp_evt_configuration.c:514-528 `vscp_evt_configuration_sendRestoreConfigurationNegativeAcknowledge` -/
  ⟨"configuration_sendRestoreConfigurationNegativeAcknowledge", 120, 15, [.u16], [.byte 0 0 8, .byte 1 0 0, .size 2]⟩,
  /- src/events/vscp_evt_configuration.c:541-568 `vscp_evt_configuration_sendSetParameter` -/
  ⟨"configuration_sendSetParameter", 120, 30, [.u8, .u8, .u8, .u16, .u16], [.byte 0 0 0, .size 1, .byte 1 1 0, .size 1, .byte 2 2 0, .size 1, .byte 3 3 8, .byte 4 3 0, .size 2, .byte 5 4 8, .byte 6 4 0, .size 2]⟩,
  /- src/events/vscp_evt_configuration.c:580-603 `vscp_evt_configuration_sendSetParameterToDefault` -/
  ⟨"configuration_sendSetParameterToDefault", 120, 31, [.u8, .u8, .u8, .u16], [.byte 0 0 0, .size 1, .byte 1 1 0, .size 1, .byte 2 2 0, .size 1, .byte 3 3 8, .byte 4 3 0, .size 2]⟩,
  /- src/events/vscp_evt_configuration.c:613-631 `vscp_evt_configuration_sendSetParameterAcknowledge` -/
  ⟨"configuration_sendSetParameterAcknowledge", 120, 32, [.u16, .u16], [.byte 0 0 8, .byte 1 0 0, .size 2, .byte 2 1 8, .byte 3 1 0, .size 2]⟩,
  /- src/events/vscp_evt_configuration.c:641-659 `vscp_evt_configuration_sendSetParamterNegativeAcknowledge` -/
  ⟨"configuration_sendSetParamterNegativeAcknowledge", 120, 33, [.u16, .u16], [.byte 0 0 8, .byte 1 0 0, .size 2, .byte 2 1 8, .byte 3 1 0, .size 2]⟩]

/-- src/events/vscp_evt_control.c: all send functions -/
def control : List Fn := [
  /- src/events/vscp_evt_control.c:79-88 `vscp_evt_control_sendGeneralEvent` -/
  ⟨"control_sendGeneralEvent", 30, 0, [], []⟩,
  /- src/events/vscp_evt_control.c:99-118 `vscp_evt_control_sendMuteOnOff` -/
  ⟨"control_sendMuteOnOff", 30, 1, [.u8, .u8, .u8], [.byte 0 0 0, .size 1, .byte 1 1 0, .size 1, .byte 2 2 0, .size 1]⟩,
  /- src/events/vscp_evt_control.c:129-148 `vscp_evt_control_sendAllLampSOnOff` -/
  ⟨"control_sendAllLampSOnOff", 30, 2, [.u8, .u8, .u8], [.byte 0 0 0, .size 1, .byte 1 1 0, .size 1, .byte 2 2 0, .size 1]⟩,
  /- src/events/vscp_evt_control.c:159-178 `vscp_evt_control_sendOpen` -/
  ⟨"control_sendOpen", 30, 3, [.u8, .u8, .u8], [.byte 0 0 0, .size 1, .byte 1 1 0, .size 1, .byte 2 2 0, .size 1]⟩,
  /- src/events/vscp_evt_control.c:189-208 `vscp_evt_control_sendClose` -/
  ⟨"control_sendClose", 30, 4, [.u8, .u8, .u8], [.byte 0 0 0, .size 1, .byte 1 1 0, .size 1, .byte 2 2 0, .size 1]⟩,
  /- src/events/vscp_evt_control.c:219-238 `vscp_evt_control_sendTurnon` -/
  ⟨"control_sendTurnon", 30, 5, [.u8, .u8, .u8], [.byte 0 0 0, .size 1, .byte 1 1 0, .size 1, .byte 2 2 0, .size 1]⟩,
  /- src/events/vscp_evt_control.c:249-268 `vscp_evt_control_sendTurnoff` -/
  ⟨"control_sendTurnoff", 30, 6, [.u8, .u8, .u8], [.byte 0 0 0, .size 1, .byte 1 1 0, .size 1, .byte 2 2 0, .size 1]⟩,
  /- src/events/vscp_evt_control.c:279-298 `vscp_evt_control_sendStart` -/
  ⟨"control_sendStart", 30, 7, [.u8, .u8, .u8], [.byte 0 0 0, .size 1, .byte 1 1 0, .size 1, .byte 2 2 0, .size 1]⟩,
  /- src/events/vscp_evt_control.c:309-328 `vscp_evt_control_sendStop` -/
  ⟨"control_sendStop", 30, 8, [.u8, .u8, .u8], [.byte 0 0 0, .size 1, .byte 1 1 0, .size 1, .byte 2 2 0, .size 1]⟩,
  /- src/events/vscp_evt_control.c:339-358 `vscp_evt_control_sendReset` -/
  ⟨"control_sendReset", 30, 9, [.u8, .u8, .u8], [.byte 0 0 0, .size 1, .byte 1 1 0, .size 1, .byte 2 2 0, .size 1]⟩,
  /- src/events/vscp_evt_control.c:369-388 `vscp_evt_control_sendInterrupt` -/
  ⟨"control_sendInterrupt", 30, 10, [.u8, .u8, .u8], [.byte 0 0 0, .size 1, .byte 1 1 0, .size 1, .byte 2 2 0, .size 1]⟩,
  /- src/events/vscp_evt_control.c:399-418 `vscp_evt_control_sendSleep` -/
  ⟨"control_sendSleep", 30, 11, [.u8, .u8, .u8], [.byte 0 0 0, .size 1, .byte 1 1 0, .size 1, .byte 2 2 0, .size 1]⟩,
  /- src/events/vscp_evt_control.c:429-448 `vscp_evt_control_sendWakeup` -/
  ⟨"control_sendWakeup", 30, 12, [.u8, .u8, .u8], [.byte 0 0 0, .size 1, .byte 1 1 0, .size 1, .byte 2 2 0, .size 1]⟩,
  /- src/events/vscp_evt_control.c:459-478 `vscp_evt_control_sendResume` -/
  ⟨"control_sendResume", 30, 13, [.u8, .u8, .u8], [.byte 0 0 0, .size 1, .byte 1 1 0, .size 1, .byte 2 2 0, .size 1]⟩,
  /- src/events/vscp_evt_control.c:489-508 `vscp_evt_control_sendPause` -/
  ⟨"control_sendPause", 30, 14, [.u8, .u8, .u8], [.byte 0 0 0, .size 1, .byte 1 1 0, .size 1, .byte 2 2 0, .size 1]⟩,
  /- src/events/vscp_evt_control.c:519-538 `vscp_evt_control_sendActivate` -/
  ⟨"control_sendActivate", 30, 15, [.u8, .u8, .u8], [.byte 0 0 0, .size 1, .byte 1 1 0, .size 1, .byte 2 2 0, .size 1]⟩,
  /- src/events/vscp_evt_control.c:549-568 `vscp_evt_control_sendDeactivate` -/
  ⟨"control_sendDeactivate", 30, 16, [.u8, .u8, .u8], [.byte 0 0 0, .size 1, .byte 1 1 0, .size 1, .byte 2 2 0, .size 1]⟩,
  /- src/events/vscp_evt_control.c:586-605 `vscp_evt_control_sendDimLampS` -/
  ⟨"control_sendDimLampS", 30, 20, [.u8, .u8, .u8], [.byte 0 0 0, .size 1, .byte 1 1 0, .size 1, .byte 2 2 0, .size 1]⟩,
  /- src/events/vscp_evt_control.c:619-638 `vscp_evt_control_sendChangeChannel` -/
  ⟨"control_sendChangeChannel", 30, 21, [.u8, .u8, .u8], [.byte 0 0 0, .size 1, .byte 1 1 0, .size 1, .byte 2 2 0, .size 1]⟩,
  /- src/events/vscp_evt_control.c:649-668 `vscp_evt_control_sendChangeLevel` -/
  ⟨"control_sendChangeLevel", 30, 22, [.u8, .u8, .u8], [.byte 0 0 0, .size 1, .byte 1 1 0, .size 1, .byte 2 2 0, .size 1]⟩,
  /- src/events/vscp_evt_control.c:679-698 `vscp_evt_control_sendRelativeChangeLevel` -/
  ⟨"control_sendRelativeChangeLevel", 30, 23, [.u8, .u8, .u8], [.byte 0 0 0, .size 1, .byte 1 1 0, .size 1, .byte 2 2 0, .size 1]⟩,
  /- src/events/vscp_evt_control.c:710-729 `vscp_evt_control_sendMeasurementRequest` -/
  ⟨"control_sendMeasurementRequest", 30, 24, [.u8, .u8, .u8], [.byte 0 0 0, .size 1, .byte 1 1 0, .size 1, .byte 2 2 0, .size 1]⟩,
  /- src/events/vscp_evt_control.c:740-768 `vscp_evt_control_sendStreamData` -/
  ⟨"control_sendStreamData", 30, 25, [.u8, .optArr, .len], [.byte 0 0 0, .size 1, .optLoop 1 1 2]⟩,
  /- src/events/vscp_evt_control.c:779-798 `vscp_evt_control_sendSync` -/
  ⟨"control_sendSync", 30, 26, [.u8, .u8, .u8], [.byte 0 0 0, .size 1, .byte 1 1 0, .size 1, .byte 2 2 0, .size 1]⟩,
  /- src/events/vscp_evt_control.c:811-845 `vscp_evt_control_sendZonedStreamData` -/
  ⟨"control_sendZonedStreamData", 30, 27, [.u8, .u8, .u8, .optArr, .len], [.byte 0 0 0, .size 1, .byte 1 1 0, .size 1, .byte 2 2 0, .size 1, .optLoop 3 3 4]⟩,
  /- src/events/vscp_evt_control.c:856-875 `vscp_evt_control_sendSetPreSet` -/
  ⟨"control_sendSetPreSet", 30, 28, [.u8, .u8, .u8], [.byte 0 0 0, .size 1, .byte 1 1 0, .size 1, .byte 2 2 0, .size 1]⟩,
  /- src/events/vscp_evt_control.c:886-905 `vscp_evt_control_sendToggleState` -/
  ⟨"control_sendToggleState", 30, 29, [.u8, .u8, .u8], [.byte 0 0 0, .size 1, .byte 1 1 0, .size 1, .byte 2 2 0, .size 1]⟩,
  /- src/events/vscp_evt_control.c:918-946 `vscp_evt_control_sendTimedPulseOn` -/
  ⟨"control_sendTimedPulseOn", 30, 30, [.u8, .u8, .u8, .u8, .u32], [.byte 0 0 0, .size 1, .byte 1 1 0, .size 1, .byte 2 2 0, .size 1, .byte 3 3 0, .size 1, .byte 4 4 24, .byte 5 4 16, .byte 6 4 8, .byte 7 4 0, .size 4]⟩,
  /- src/events/vscp_evt_control.c:959-987 `vscp_evt_control_sendTimedPulseOff` -/
  ⟨"control_sendTimedPulseOff", 30, 31, [.u8, .u8, .u8, .u8, .u32], [.byte 0 0 0, .size 1, .byte 1 1 0, .size 1, .byte 2 2 0, .size 1, .byte 3 3 0, .size 1, .byte 4 4 24, .byte 5 4 16, .byte 6 4 8, .byte 7 4 0, .size 4]⟩,
  /- src/events/vscp_evt_control.c:1000-1036 `vscp_evt_control_sendSetCountryLanguage` -/
  ⟨"control_sendSetCountryLanguage", 30, 32, [.u8, .u8, .u8, .arr, .len], [.need 3 4, .byte 0 0 0, .size 1, .byte 1 1 0, .size 1, .byte 2 2 0, .size 1, .loop 3 3 4]⟩,
  /- src/events/vscp_evt_control.c:1049-1070 `vscp_evt_control_sendBigChangeLevel` -/
  ⟨"control_sendBigChangeLevel", 30, 33, [.u8, .u8, .u8, .i32], [.byte 0 0 0, .size 1, .byte 1 1 0, .size 1, .byte 2 2 0, .size 1]⟩,
  /- src/events/vscp_evt_control.c:1081-1100 `vscp_evt_control_sendMoveShutterUp` -/
  ⟨"control_sendMoveShutterUp", 30, 34, [.u8, .u8, .u8], [.byte 0 0 0, .size 1, .byte 1 1 0, .size 1, .byte 2 2 0, .size 1]⟩,
  /- src/events/vscp_evt_control.c:1111-1130 `vscp_evt_control_sendMoveShutterDown` -/
  ⟨"control_sendMoveShutterDown", 30, 35, [.u8, .u8, .u8], [.byte 0 0 0, .size 1, .byte 1 1 0, .size 1, .byte 2 2 0, .size 1]⟩,
  /- src/events/vscp_evt_control.c:1141-1160 `vscp_evt_control_sendMoveShutterLeft` -/
  ⟨"control_sendMoveShutterLeft", 30, 36, [.u8, .u8, .u8], [.byte 0 0 0, .size 1, .byte 1 1 0, .size 1, .byte 2 2 0, .size 1]⟩,
  /- src/events/vscp_evt_control.c:1171-1190 `vscp_evt_control_sendMoveShutterRight` -/
  ⟨"control_sendMoveShutterRight", 30, 37, [.u8, .u8, .u8], [.byte 0 0 0, .size 1, .byte 1 1 0, .size 1, .byte 2 2 0, .size 1]⟩,
  /- src/events/vscp_evt_control.c:1201-1220 `vscp_evt_control_sendMoveShutterToMiddlePosition` -/
  ⟨"control_sendMoveShutterToMiddlePosition", 30, 38, [.u8, .u8, .u8], [.byte 0 0 0, .size 1, .byte 1 1 0, .size 1, .byte 2 2 0, .size 1]⟩,
  /- src/events/vscp_evt_control.c:1231-1250 `vscp_evt_control_sendMoveShutterToPresetPosition` -/
  ⟨"control_sendMoveShutterToPresetPosition", 30, 39, [.u8, .u8, .u8], [.byte 0 0 0, .size 1, .byte 1 1 0, .size 1, .byte 2 2 0, .size 1]⟩,
  /- src/events/vscp_evt_control.c:1261-1280 `vscp_evt_control_sendAllLampSOn` -/
  ⟨"control_sendAllLampSOn", 30, 40, [.u8, .u8, .u8], [.byte 0 0 0, .size 1, .byte 1 1 0, .size 1, .byte 2 2 0, .size 1]⟩,
  /- src/events/vscp_evt_control.c:1291-1310 `vscp_evt_control_sendAllLampSOff` -/
  ⟨"control_sendAllLampSOff", 30, 41, [.u8, .u8, .u8], [.byte 0 0 0, .size 1, .byte 1 1 0, .size 1, .byte 2 2 0, .size 1]⟩,
  /- src/events/vscp_evt_control.c:1321-1340 `vscp_evt_control_sendLock` -/
  ⟨"control_sendLock", 30, 42, [.u8, .u8, .u8], [.byte 0 0 0, .size 1, .byte 1 1 0, .size 1, .byte 2 2 0, .size 1]⟩,
  /- src/events/vscp_evt_control.c:1351-1370 `vscp_evt_control_sendUnlock` -/
  ⟨"control_sendUnlock", 30, 43, [.u8, .u8, .u8], [.byte 0 0 0, .size 1, .byte 1 1 0, .size 1, .byte 2 2 0, .size 1]⟩,
  /- src/events/vscp_evt_control.c:1384-1414 `vscp_evt_control_sendPwmSet` -/
  ⟨"control_sendPwmSet", 30, 44, [.u8, .u8, .u8, .u8, .u16, .u16], [.byte 0 0 0, .size 1, .byte 1 1 0, .size 1, .byte 2 2 0, .size 1, .byte 3 3 0, .size 1, .byte 4 4 8, .byte 5 4 0, .size 2, .byte 6 5 8, .byte 7 5 0, .size 2]⟩,
  /- src/events/vscp_evt_control.c:1429-1465 `vscp_evt_control_sendLockWithToken` -/
  ⟨"control_sendLockWithToken", 30, 45, [.u8, .u8, .u8, .arr, .len], [.need 3 4, .byte 0 0 0, .size 1, .byte 1 1 0, .size 1, .byte 2 2 0, .size 1, .loop 3 3 4]⟩,
  /- src/events/vscp_evt_control.c:1480-1516 `vscp_evt_control_sendUnlockWithToken` -/
  ⟨"control_sendUnlockWithToken", 30, 46, [.u8, .u8, .u8, .arr, .len], [.need 3 4, .byte 0 0 0, .size 1, .byte 1 1 0, .size 1, .byte 2 2 0, .size 1, .loop 3 3 4]⟩,
  /- src/events/vscp_evt_control.c:1527-1546 `vscp_evt_control_sendSetSecurityLevel` -/
  ⟨"control_sendSetSecurityLevel", 30, 47, [.u8, .u8, .u8], [.byte 0 0 0, .size 1, .byte 1 1 0, .size 1, .byte 2 2 0, .size 1]⟩,
  /- src/events/vscp_evt_control.c:1561-1597 `vscp_evt_control_sendSetSecurityPin` -/
  ⟨"control_sendSetSecurityPin", 30, 48, [.u8, .u8, .u8, .arr, .len], [.need 3 4, .byte 0 0 0, .size 1, .byte 1 1 0, .size 1, .byte 2 2 0, .size 1, .loop 3 3 4]⟩,
  /- src/events/vscp_evt_control.c:1612-1648 `vscp_evt_control_sendSetSecurityPassword` -/
  ⟨"control_sendSetSecurityPassword", 30, 49, [.u8, .u8, .u8, .arr, .len], [.need 3 4, .byte 0 0 0, .size 1, .byte 1 1 0, .size 1, .byte 2 2 0, .size 1, .loop 3 3 4]⟩,
  /- src/events/vscp_evt_control.c:1663-1699 `vscp_evt_control_sendSetSecurityToken` -/
  ⟨"control_sendSetSecurityToken", 30, 50, [.u8, .u8, .u8, .arr, .len], [.need 3 4, .byte 0 0 0, .size 1, .byte 1 1 0, .size 1, .byte 2 2 0, .size 1, .loop 3 3 4]⟩,
  /- src/events/vscp_evt_control.c:1710-1729 `vscp_evt_control_sendRequestNewSecurityToken` -/
  ⟨"control_sendRequestNewSecurityToken", 30, 51, [.u8, .u8, .u8], [.byte 0 0 0, .size 1, .byte 1 1 0, .size 1, .byte 2 2 0, .size 1]⟩,
  /- src/events/vscp_evt_control.c:1744-1778 `vscp_evt_control_sendIncrement` -/
  ⟨"control_sendIncrement", 30, 52, [.u8, .u8, .u8, .optArr, .len], [.byte 0 0 0, .size 1, .byte 1 1 0, .size 1, .byte 2 2 0, .size 1, .optLoop 3 3 4]⟩,
  /- src/events/vscp_evt_control.c:1793-1827 `vscp_evt_control_sendDecrement` -/
  ⟨"control_sendDecrement", 30, 53, [.u8, .u8, .u8, .optArr, .len], [.byte 0 0 0, .size 1, .byte 1 1 0, .size 1, .byte 2 2 0, .size 1, .optLoop 3 3 4]⟩]

/-- src/events/vscp_evt_data.c: all send functions -/
def data : List Fn := [
  /- src/events/vscp_evt_data.c:80-89 `vscp_evt_data_sendGeneralEvent` -/
  ⟨"data_sendGeneralEvent", 15, 0, [], []⟩,
  /- src/events/vscp_evt_data.c:101-113 `vscp_evt_data_sendIOValue` -/
  ⟨"data_sendIOValue", 15, 1, [.u8, .u8, .i32, .i8], [.size 1, .format 0 1 0, .norm 1 2 3]⟩,
  /- src/events/vscp_evt_data.c:125-137 `vscp_evt_data_sendADValue` -/
  ⟨"data_sendADValue", 15, 2, [.u8, .u8, .i32, .i8], [.size 1, .format 0 1 0, .norm 1 2 3]⟩,
  /- src/events/vscp_evt_data.c:149-161 `vscp_evt_data_sendDAValue` -/
  ⟨"data_sendDAValue", 15, 3, [.u8, .u8, .i32, .i8], [.size 1, .format 0 1 0, .norm 1 2 3]⟩,
  /- src/events/vscp_evt_data.c:173-185 `vscp_evt_data_sendRelativeStrength` -/
  ⟨"data_sendRelativeStrength", 15, 4, [.u8, .u8, .i32, .i8], [.size 1, .format 0 1 0, .norm 1 2 3]⟩,
  /- src/events/vscp_evt_data.c:197-209 `vscp_evt_data_sendSignalLevel` -/
  ⟨"data_sendSignalLevel", 15, 5, [.u8, .u8, .i32, .i8], [.size 1, .format 0 1 0, .norm 1 2 3]⟩,
  /- src/events/vscp_evt_data.c:221-233 `vscp_evt_data_sendSignalQuality` -/
  ⟨"data_sendSignalQuality", 15, 6, [.u8, .u8, .i32, .i8], [.size 1, .format 0 1 0, .norm 1 2 3]⟩]

/-- src/events/vscp_evt_diagnostic.c: all send functions -/
def diagnostic : List Fn := [
  /- src/events/vscp_evt_diagnostic.c:79-88 `vscp_evt_diagnostic_sendGeneralEvent` -/
  ⟨"diagnostic_sendGeneralEvent", 506, 0, [], []⟩,
  /- src/events/vscp_evt_diagnostic.c:102-136 `vscp_evt_diagnostic_sendOvervoltage` -/
  ⟨"diagnostic_sendOvervoltage", 506, 1, [.u8, .u8, .u8, .optArr, .len], [.byte 0 0 0, .size 1, .byte 1 1 0, .size 1, .byte 2 2 0, .size 1, .optLoop 3 3 4]⟩,
  /- src/events/vscp_evt_diagnostic.c:150-184 `vscp_evt_diagnostic_sendUndervoltage` -/
  ⟨"diagnostic_sendUndervoltage", 506, 2, [.u8, .u8, .u8, .optArr, .len], [.byte 0 0 0, .size 1, .byte 1 1 0, .size 1, .byte 2 2 0, .size 1, .optLoop 3 3 4]⟩,
  /- src/events/vscp_evt_diagnostic.c:198-232 `vscp_evt_diagnostic_sendUsbVbusLow` -/
  ⟨"diagnostic_sendUsbVbusLow", 506, 3, [.u8, .u8, .u8, .optArr, .len], [.byte 0 0 0, .size 1, .byte 1 1 0, .size 1, .byte 2 2 0, .size 1, .optLoop 3 3 4]⟩,
  /- src/events/vscp_evt_diagnostic.c:246-280 `vscp_evt_diagnostic_sendBatteryVoltageLow` -/
  ⟨"diagnostic_sendBatteryVoltageLow", 506, 4, [.u8, .u8, .u8, .optArr, .len], [.byte 0 0 0, .size 1, .byte 1 1 0, .size 1, .byte 2 2 0, .size 1, .optLoop 3 3 4]⟩,
  /- src/events/vscp_evt_diagnostic.c:294-328 `vscp_evt_diagnostic_sendBatteryFullVoltage` -/
  ⟨"diagnostic_sendBatteryFullVoltage", 506, 5, [.u8, .u8, .u8, .optArr, .len], [.byte 0 0 0, .size 1, .byte 1 1 0, .size 1, .byte 2 2 0, .size 1, .optLoop 3 3 4]⟩,
  /- src/events/vscp_evt_diagnostic.c:342-376 `vscp_evt_diagnostic_sendBatteryError` -/
  ⟨"diagnostic_sendBatteryError", 506, 6, [.u8, .u8, .u8, .optArr, .len], [.byte 0 0 0, .size 1, .byte 1 1 0, .size 1, .byte 2 2 0, .size 1, .optLoop 3 3 4]⟩,
  /- src/events/vscp_evt_diagnostic.c:390-424 `vscp_evt_diagnostic_sendBatteryOk` -/
  ⟨"diagnostic_sendBatteryOk", 506, 7, [.u8, .u8, .u8, .optArr, .len], [.byte 0 0 0, .size 1, .byte 1 1 0, .size 1, .byte 2 2 0, .size 1, .optLoop 3 3 4]⟩,
  /- src/events/vscp_evt_diagnostic.c:438-472 `vscp_evt_diagnostic_sendOverCurrent` -/
  ⟨"diagnostic_sendOverCurrent", 506, 8, [.u8, .u8, .u8, .optArr, .len], [.byte 0 0 0, .size 1, .byte 1 1 0, .size 1, .byte 2 2 0, .size 1, .optLoop 3 3 4]⟩,
  /- src/events/vscp_evt_diagnostic.c:486-520 `vscp_evt_diagnostic_sendCircuitError` -/
  ⟨"diagnostic_sendCircuitError", 506, 9, [.u8, .u8, .u8, .optArr, .len], [.byte 0 0 0, .size 1, .byte 1 1 0, .size 1, .byte 2 2 0, .size 1, .optLoop 3 3 4]⟩,
  /- src/events/vscp_evt_diagnostic.c:534-568 `vscp_evt_diagnostic_sendShortCircuit` -/
  ⟨"diagnostic_sendShortCircuit", 506, 10, [.u8, .u8, .u8, .optArr, .len], [.byte 0 0 0, .size 1, .byte 1 1 0, .size 1, .byte 2 2 0, .size 1, .optLoop 3 3 4]⟩,
  /- src/events/vscp_evt_diagnostic.c:582-616 `vscp_evt_diagnostic_sendOpenCircuit` -/
  ⟨"diagnostic_sendOpenCircuit", 506, 11, [.u8, .u8, .u8, .optArr, .len], [.byte 0 0 0, .size 1, .byte 1 1 0, .size 1, .byte 2 2 0, .size 1, .optLoop 3 3 4]⟩,
  /- src/events/vscp_evt_diagnostic.c:630-664 `vscp_evt_diagnostic_sendMoist` -/
  ⟨"diagnostic_sendMoist", 506, 12, [.u8, .u8, .u8, .optArr, .len], [.byte 0 0 0, .size 1, .byte 1 1 0, .size 1, .byte 2 2 0, .size 1, .optLoop 3 3 4]⟩,
  /- src/events/vscp_evt_diagnostic.c:678-712 `vscp_evt_diagnostic_sendWireFailure` -/
  ⟨"diagnostic_sendWireFailure", 506, 13, [.u8, .u8, .u8, .optArr, .len], [.byte 0 0 0, .size 1, .byte 1 1 0, .size 1, .byte 2 2 0, .size 1, .optLoop 3 3 4]⟩,
  /- src/events/vscp_evt_diagnostic.c:726-760 `vscp_evt_diagnostic_sendWirelessFaliure` -/
  ⟨"diagnostic_sendWirelessFaliure", 506, 14, [.u8, .u8, .u8, .optArr, .len], [.byte 0 0 0, .size 1, .byte 1 1 0, .size 1, .byte 2 2 0, .size 1, .optLoop 3 3 4]⟩,
  /- src/events/vscp_evt_diagnostic.c:774-808 `vscp_evt_diagnostic_sendIrFailure` -/
  ⟨"diagnostic_sendIrFailure", 506, 15, [.u8, .u8, .u8, .optArr, .len], [.byte 0 0 0, .size 1, .byte 1 1 0, .size 1, .byte 2 2 0, .size 1, .optLoop 3 3 4]⟩,
  /- src/events/vscp_evt_diagnostic.c:822-856 `vscp_evt_diagnostic_send1WireFailure` -/
  ⟨"diagnostic_send1WireFailure", 506, 16, [.u8, .u8, .u8, .optArr, .len], [.byte 0 0 0, .size 1, .byte 1 1 0, .size 1, .byte 2 2 0, .size 1, .optLoop 3 3 4]⟩,
  /- src/events/vscp_evt_diagnostic.c:870-904 `vscp_evt_diagnostic_sendRs222Failure` -/
  ⟨"diagnostic_sendRs222Failure", 506, 17, [.u8, .u8, .u8, .optArr, .len], [.byte 0 0 0, .size 1, .byte 1 1 0, .size 1, .byte 2 2 0, .size 1, .optLoop 3 3 4]⟩,
  /- src/events/vscp_evt_diagnostic.c:918-952 `vscp_evt_diagnostic_sendRs232Failure` -/
  ⟨"diagnostic_sendRs232Failure", 506, 18, [.u8, .u8, .u8, .optArr, .len], [.byte 0 0 0, .size 1, .byte 1 1 0, .size 1, .byte 2 2 0, .size 1, .optLoop 3 3 4]⟩,
  /- src/events/vscp_evt_diagnostic.c:966-1000 `vscp_evt_diagnostic_sendRs423Failure` -/
  ⟨"diagnostic_sendRs423Failure", 506, 19, [.u8, .u8, .u8, .optArr, .len], [.byte 0 0 0, .size 1, .byte 1 1 0, .size 1, .byte 2 2 0, .size 1, .optLoop 3 3 4]⟩,
  /- src/events/vscp_evt_diagnostic.c:1014-1048 `vscp_evt_diagnostic_sendRs485Failure` -/
  ⟨"diagnostic_sendRs485Failure", 506, 20, [.u8, .u8, .u8, .optArr, .len], [.byte 0 0 0, .size 1, .byte 1 1 0, .size 1, .byte 2 2 0, .size 1, .optLoop 3 3 4]⟩,
  /- src/events/vscp_evt_diagnostic.c:1062-1096 `vscp_evt_diagnostic_sendCanFailure` -/
  ⟨"diagnostic_sendCanFailure", 506, 21, [.u8, .u8, .u8, .optArr, .len], [.byte 0 0 0, .size 1, .byte 1 1 0, .size 1, .byte 2 2 0, .size 1, .optLoop 3 3 4]⟩,
  /- src/events/vscp_evt_diagnostic.c:1110-1144 `vscp_evt_diagnostic_sendLanFailure` -/
  ⟨"diagnostic_sendLanFailure", 506, 22, [.u8, .u8, .u8, .optArr, .len], [.byte 0 0 0, .size 1, .byte 1 1 0, .size 1, .byte 2 2 0, .size 1, .optLoop 3 3 4]⟩,
  /- src/events/vscp_evt_diagnostic.c:1158-1192 `vscp_evt_diagnostic_sendUsbFailure` -/
  ⟨"diagnostic_sendUsbFailure", 506, 23, [.u8, .u8, .u8, .optArr, .len], [.byte 0 0 0, .size 1, .byte 1 1 0, .size 1, .byte 2 2 0, .size 1, .optLoop 3 3 4]⟩,
  /- src/events/vscp_evt_diagnostic.c:1206-1240 `vscp_evt_diagnostic_sendWifiFailure` -/
  ⟨"diagnostic_sendWifiFailure", 506, 24, [.u8, .u8, .u8, .optArr, .len], [.byte 0 0 0, .size 1, .byte 1 1 0, .size 1, .byte 2 2 0, .size 1, .optLoop 3 3 4]⟩,
  /- src/events/vscp_evt_diagnostic.c:1254-1288 `vscp_evt_diagnostic_sendNfcRfidFailure` -/
  ⟨"diagnostic_sendNfcRfidFailure", 506, 25, [.u8, .u8, .u8, .optArr, .len], [.byte 0 0 0, .size 1, .byte 1 1 0, .size 1, .byte 2 2 0, .size 1, .optLoop 3 3 4]⟩,
  /- src/events/vscp_evt_diagnostic.c:1302-1336 `vscp_evt_diagnostic_sendLowSignal` -/
  ⟨"diagnostic_sendLowSignal", 506, 26, [.u8, .u8, .u8, .optArr, .len], [.byte 0 0 0, .size 1, .byte 1 1 0, .size 1, .byte 2 2 0, .size 1, .optLoop 3 3 4]⟩,
  /- src/events/vscp_evt_diagnostic.c:1350-1384 `vscp_evt_diagnostic_sendHighSignal` -/
  ⟨"diagnostic_sendHighSignal", 506, 27, [.u8, .u8, .u8, .optArr, .len], [.byte 0 0 0, .size 1, .byte 1 1 0, .size 1, .byte 2 2 0, .size 1, .optLoop 3 3 4]⟩,
  /- src/events/vscp_evt_diagnostic.c:1398-1432 `vscp_evt_diagnostic_sendAdcFailure` -/
  ⟨"diagnostic_sendAdcFailure", 506, 28, [.u8, .u8, .u8, .optArr, .len], [.byte 0 0 0, .size 1, .byte 1 1 0, .size 1, .byte 2 2 0, .size 1, .optLoop 3 3 4]⟩,
  /- src/events/vscp_evt_diagnostic.c:1446-1480 `vscp_evt_diagnostic_sendAluFailure` -/
  ⟨"diagnostic_sendAluFailure", 506, 29, [.u8, .u8, .u8, .optArr, .len], [.byte 0 0 0, .size 1, .byte 1 1 0, .size 1, .byte 2 2 0, .size 1, .optLoop 3 3 4]⟩,
  /- src/events/vscp_evt_diagnostic.c:1494-1528 `vscp_evt_diagnostic_sendAssert` -/
  ⟨"diagnostic_sendAssert", 506, 30, [.u8, .u8, .u8, .optArr, .len], [.byte 0 0 0, .size 1, .byte 1 1 0, .size 1, .byte 2 2 0, .size 1, .optLoop 3 3 4]⟩,
  /- src/events/vscp_evt_diagnostic.c:1542-1576 `vscp_evt_diagnostic_sendDacFailure` -/
  ⟨"diagnostic_sendDacFailure", 506, 31, [.u8, .u8, .u8, .optArr, .len], [.byte 0 0 0, .size 1, .byte 1 1 0, .size 1, .byte 2 2 0, .size 1, .optLoop 3 3 4]⟩,
  /- src/events/vscp_evt_diagnostic.c:1590-1624 `vscp_evt_diagnostic_sendDmaFailure` -/
  ⟨"diagnostic_sendDmaFailure", 506, 32, [.u8, .u8, .u8, .optArr, .len], [.byte 0 0 0, .size 1, .byte 1 1 0, .size 1, .byte 2 2 0, .size 1, .optLoop 3 3 4]⟩,
  /- src/events/vscp_evt_diagnostic.c:1638-1672 `vscp_evt_diagnostic_sendEthernetFailure` -/
  ⟨"diagnostic_sendEthernetFailure", 506, 33, [.u8, .u8, .u8, .optArr, .len], [.byte 0 0 0, .size 1, .byte 1 1 0, .size 1, .byte 2 2 0, .size 1, .optLoop 3 3 4]⟩,
  /- src/events/vscp_evt_diagnostic.c:1686-1720 `vscp_evt_diagnostic_sendException` -/
  ⟨"diagnostic_sendException", 506, 34, [.u8, .u8, .u8, .optArr, .len], [.byte 0 0 0, .size 1, .byte 1 1 0, .size 1, .byte 2 2 0, .size 1, .optLoop 3 3 4]⟩,
  /- src/events/vscp_evt_diagnostic.c:1734-1768 `vscp_evt_diagnostic_sendFpuFailure` -/
  ⟨"diagnostic_sendFpuFailure", 506, 35, [.u8, .u8, .u8, .optArr, .len], [.byte 0 0 0, .size 1, .byte 1 1 0, .size 1, .byte 2 2 0, .size 1, .optLoop 3 3 4]⟩,
  /- src/events/vscp_evt_diagnostic.c:1782-1816 `vscp_evt_diagnostic_sendGpioFailure` -/
  ⟨"diagnostic_sendGpioFailure", 506, 36, [.u8, .u8, .u8, .optArr, .len], [.byte 0 0 0, .size 1, .byte 1 1 0, .size 1, .byte 2 2 0, .size 1, .optLoop 3 3 4]⟩,
  /- src/events/vscp_evt_diagnostic.c:1830-1864 `vscp_evt_diagnostic_sendI2cFailure` -/
  ⟨"diagnostic_sendI2cFailure", 506, 37, [.u8, .u8, .u8, .optArr, .len], [.byte 0 0 0, .size 1, .byte 1 1 0, .size 1, .byte 2 2 0, .size 1, .optLoop 3 3 4]⟩,
  /- src/events/vscp_evt_diagnostic.c:1878-1912 `vscp_evt_diagnostic_sendI2sFailure` -/
  ⟨"diagnostic_sendI2sFailure", 506, 38, [.u8, .u8, .u8, .optArr, .len], [.byte 0 0 0, .size 1, .byte 1 1 0, .size 1, .byte 2 2 0, .size 1, .optLoop 3 3 4]⟩,
  /- src/events/vscp_evt_diagnostic.c:1926-1960 `vscp_evt_diagnostic_sendInvalidConfiguration` -/
  ⟨"diagnostic_sendInvalidConfiguration", 506, 39, [.u8, .u8, .u8, .optArr, .len], [.byte 0 0 0, .size 1, .byte 1 1 0, .size 1, .byte 2 2 0, .size 1, .optLoop 3 3 4]⟩,
  /- src/events/vscp_evt_diagnostic.c:1974-2008 `vscp_evt_diagnostic_sendMmuFailure` -/
  ⟨"diagnostic_sendMmuFailure", 506, 40, [.u8, .u8, .u8, .optArr, .len], [.byte 0 0 0, .size 1, .byte 1 1 0, .size 1, .byte 2 2 0, .size 1, .optLoop 3 3 4]⟩,
  /- src/events/vscp_evt_diagnostic.c:2022-2056 `vscp_evt_diagnostic_sendNmiFailure` -/
  ⟨"diagnostic_sendNmiFailure", 506, 41, [.u8, .u8, .u8, .optArr, .len], [.byte 0 0 0, .size 1, .byte 1 1 0, .size 1, .byte 2 2 0, .size 1, .optLoop 3 3 4]⟩,
  /- src/events/vscp_evt_diagnostic.c:2070-2104 `vscp_evt_diagnostic_sendOverheat` -/
  ⟨"diagnostic_sendOverheat", 506, 42, [.u8, .u8, .u8, .optArr, .len], [.byte 0 0 0, .size 1, .byte 1 1 0, .size 1, .byte 2 2 0, .size 1, .optLoop 3 3 4]⟩,
  /- src/events/vscp_evt_diagnostic.c:2118-2152 `vscp_evt_diagnostic_sendPllFail` -/
  ⟨"diagnostic_sendPllFail", 506, 43, [.u8, .u8, .u8, .optArr, .len], [.byte 0 0 0, .size 1, .byte 1 1 0, .size 1, .byte 2 2 0, .size 1, .optLoop 3 3 4]⟩,
  /- src/events/vscp_evt_diagnostic.c:2166-2200 `vscp_evt_diagnostic_sendPorFailure` -/
  ⟨"diagnostic_sendPorFailure", 506, 44, [.u8, .u8, .u8, .optArr, .len], [.byte 0 0 0, .size 1, .byte 1 1 0, .size 1, .byte 2 2 0, .size 1, .optLoop 3 3 4]⟩,
  /- src/events/vscp_evt_diagnostic.c:2214-2248 `vscp_evt_diagnostic_sendPwmFailure` -/
  ⟨"diagnostic_sendPwmFailure", 506, 45, [.u8, .u8, .u8, .optArr, .len], [.byte 0 0 0, .size 1, .byte 1 1 0, .size 1, .byte 2 2 0, .size 1, .optLoop 3 3 4]⟩,
  /- src/events/vscp_evt_diagnostic.c:2262-2296 `vscp_evt_diagnostic_sendRamFailure` -/
  ⟨"diagnostic_sendRamFailure", 506, 46, [.u8, .u8, .u8, .optArr, .len], [.byte 0 0 0, .size 1, .byte 1 1 0, .size 1, .byte 2 2 0, .size 1, .optLoop 3 3 4]⟩,
  /- src/events/vscp_evt_diagnostic.c:2310-2344 `vscp_evt_diagnostic_sendRomFailure` -/
  ⟨"diagnostic_sendRomFailure", 506, 47, [.u8, .u8, .u8, .optArr, .len], [.byte 0 0 0, .size 1, .byte 1 1 0, .size 1, .byte 2 2 0, .size 1, .optLoop 3 3 4]⟩,
  /- src/events/vscp_evt_diagnostic.c:2358-2392 `vscp_evt_diagnostic_sendSpiFailure` -/
  ⟨"diagnostic_sendSpiFailure", 506, 48, [.u8, .u8, .u8, .optArr, .len], [.byte 0 0 0, .size 1, .byte 1 1 0, .size 1, .byte 2 2 0, .size 1, .optLoop 3 3 4]⟩,
  /- src/events/vscp_evt_diagnostic.c:2406-2440 `vscp_evt_diagnostic_sendStackFailure` -/
  ⟨"diagnostic_sendStackFailure", 506, 49, [.u8, .u8, .u8, .optArr, .len], [.byte 0 0 0, .size 1, .byte 1 1 0, .size 1, .byte 2 2 0, .size 1, .optLoop 3 3 4]⟩,
  /- src/events/vscp_evt_diagnostic.c:2454-2488 `vscp_evt_diagnostic_sendLinBusFailure` -/
  ⟨"diagnostic_sendLinBusFailure", 506, 50, [.u8, .u8, .u8, .optArr, .len], [.byte 0 0 0, .size 1, .byte 1 1 0, .size 1, .byte 2 2 0, .size 1, .optLoop 3 3 4]⟩,
  /- src/events/vscp_evt_diagnostic.c:2502-2536 `vscp_evt_diagnostic_sendUartFailure` -/
  ⟨"diagnostic_sendUartFailure", 506, 51, [.u8, .u8, .u8, .optArr, .len], [.byte 0 0 0, .size 1, .byte 1 1 0, .size 1, .byte 2 2 0, .size 1, .optLoop 3 3 4]⟩,
  /- src/events/vscp_evt_diagnostic.c:2550-2584 `vscp_evt_diagnostic_sendUnhandledInterrupt` -/
  ⟨"diagnostic_sendUnhandledInterrupt", 506, 52, [.u8, .u8, .u8, .optArr, .len], [.byte 0 0 0, .size 1, .byte 1 1 0, .size 1, .byte 2 2 0, .size 1, .optLoop 3 3 4]⟩,
  /- src/events/vscp_evt_diagnostic.c:2598-2632 `vscp_evt_diagnostic_sendMemoryFailure` -/
  ⟨"diagnostic_sendMemoryFailure", 506, 53, [.u8, .u8, .u8, .optArr, .len], [.byte 0 0 0, .size 1, .byte 1 1 0, .size 1, .byte 2 2 0, .size 1, .optLoop 3 3 4]⟩,
  /- src/events/vscp_evt_diagnostic.c:2646-2680 `vscp_evt_diagnostic_sendVariableRangeFailure` -/
  ⟨"diagnostic_sendVariableRangeFailure", 506, 54, [.u8, .u8, .u8, .optArr, .len], [.byte 0 0 0, .size 1, .byte 1 1 0, .size 1, .byte 2 2 0, .size 1, .optLoop 3 3 4]⟩,
  /- src/events/vscp_evt_diagnostic.c:2694-2728 `vscp_evt_diagnostic_sendWdtFailure` -/
  ⟨"diagnostic_sendWdtFailure", 506, 55, [.u8, .u8, .u8, .optArr, .len], [.byte 0 0 0, .size 1, .byte 1 1 0, .size 1, .byte 2 2 0, .size 1, .optLoop 3 3 4]⟩,
  /- src/events/vscp_evt_diagnostic.c:2742-2776 `vscp_evt_diagnostic_sendEepromFailure` -/
  ⟨"diagnostic_sendEepromFailure", 506, 56, [.u8, .u8, .u8, .optArr, .len], [.byte 0 0 0, .size 1, .byte 1 1 0, .size 1, .byte 2 2 0, .size 1, .optLoop 3 3 4]⟩,
  /- src/events/vscp_evt_diagnostic.c:2790-2824 `vscp_evt_diagnostic_sendEncryptionFailure` -/
  ⟨"diagnostic_sendEncryptionFailure", 506, 57, [.u8, .u8, .u8, .optArr, .len], [.byte 0 0 0, .size 1, .byte 1 1 0, .size 1, .byte 2 2 0, .size 1, .optLoop 3 3 4]⟩,
  /- src/events/vscp_evt_diagnostic.c:2838-2872 `vscp_evt_diagnostic_sendBadUserInputFailure` -/
  ⟨"diagnostic_sendBadUserInputFailure", 506, 58, [.u8, .u8, .u8, .optArr, .len], [.byte 0 0 0, .size 1, .byte 1 1 0, .size 1, .byte 2 2 0, .size 1, .optLoop 3 3 4]⟩,
  /- src/events/vscp_evt_diagnostic.c:2886-2920 `vscp_evt_diagnostic_sendDecryptionFailure` -/
  ⟨"diagnostic_sendDecryptionFailure", 506, 59, [.u8, .u8, .u8, .optArr, .len], [.byte 0 0 0, .size 1, .byte 1 1 0, .size 1, .byte 2 2 0, .size 1, .optLoop 3 3 4]⟩,
  /- src/events/vscp_evt_diagnostic.c:2934-2968 `vscp_evt_diagnostic_sendNoise` -/
  ⟨"diagnostic_sendNoise", 506, 60, [.u8, .u8, .u8, .optArr, .len], [.byte 0 0 0, .size 1, .byte 1 1 0, .size 1, .byte 2 2 0, .size 1, .optLoop 3 3 4]⟩,
  /- src/events/vscp_evt_diagnostic.c:2982-3016 `vscp_evt_diagnostic_sendBootLoaderFailure` -/
  ⟨"diagnostic_sendBootLoaderFailure", 506, 61, [.u8, .u8, .u8, .optArr, .len], [.byte 0 0 0, .size 1, .byte 1 1 0, .size 1, .byte 2 2 0, .size 1, .optLoop 3 3 4]⟩,
  /- src/events/vscp_evt_diagnostic.c:3030-3064 `vscp_evt_diagnostic_sendProgramFlowFailure` -/
  ⟨"diagnostic_sendProgramFlowFailure", 506, 62, [.u8, .u8, .u8, .optArr, .len], [.byte 0 0 0, .size 1, .byte 1 1 0, .size 1, .byte 2 2 0, .size 1, .optLoop 3 3 4]⟩,
  /- src/events/vscp_evt_diagnostic.c:3078-3112 `vscp_evt_diagnostic_sendRtcFaiure` -/
  ⟨"diagnostic_sendRtcFaiure", 506, 63, [.u8, .u8, .u8, .optArr, .len], [.byte 0 0 0, .size 1, .byte 1 1 0, .size 1, .byte 2 2 0, .size 1, .optLoop 3 3 4]⟩,
  /- src/events/vscp_evt_diagnostic.c:3126-3160 `vscp_evt_diagnostic_sendSystemTestFailure` -/
  ⟨"diagnostic_sendSystemTestFailure", 506, 64, [.u8, .u8, .u8, .optArr, .len], [.byte 0 0 0, .size 1, .byte 1 1 0, .size 1, .byte 2 2 0, .size 1, .optLoop 3 3 4]⟩,
  /- src/events/vscp_evt_diagnostic.c:3174-3208 `vscp_evt_diagnostic_sendSensorFailure` -/
  ⟨"diagnostic_sendSensorFailure", 506, 65, [.u8, .u8, .u8, .optArr, .len], [.byte 0 0 0, .size 1, .byte 1 1 0, .size 1, .byte 2 2 0, .size 1, .optLoop 3 3 4]⟩,
  /- src/events/vscp_evt_diagnostic.c:3222-3256 `vscp_evt_diagnostic_sendSafeStateEntered` -/
  ⟨"diagnostic_sendSafeStateEntered", 506, 66, [.u8, .u8, .u8, .optArr, .len], [.byte 0 0 0, .size 1, .byte 1 1 0, .size 1, .byte 2 2 0, .size 1, .optLoop 3 3 4]⟩,
  /- src/events/vscp_evt_diagnostic.c:3270-3304 `vscp_evt_diagnostic_sendSignalImplausible` -/
  ⟨"diagnostic_sendSignalImplausible", 506, 67, [.u8, .u8, .u8, .optArr, .len], [.byte 0 0 0, .size 1, .byte 1 1 0, .size 1, .byte 2 2 0, .size 1, .optLoop 3 3 4]⟩,
  /- src/events/vscp_evt_diagnostic.c:3318-3352 `vscp_evt_diagnostic_sendStorageFail` -/
  ⟨"diagnostic_sendStorageFail", 506, 68, [.u8, .u8, .u8, .optArr, .len], [.byte 0 0 0, .size 1, .byte 1 1 0, .size 1, .byte 2 2 0, .size 1, .optLoop 3 3 4]⟩,
  /- src/events/vscp_evt_diagnostic.c:3366-3400 `vscp_evt_diagnostic_sendSelfTestOk` -/
  ⟨"diagnostic_sendSelfTestOk", 506, 69, [.u8, .u8, .u8, .optArr, .len], [.byte 0 0 0, .size 1, .byte 1 1 0, .size 1, .byte 2 2 0, .size 1, .optLoop 3 3 4]⟩,
  /- src/events/vscp_evt_diagnostic.c:3414-3448 `vscp_evt_diagnostic_sendEsdEmcEmiFailure` -/
  ⟨"diagnostic_sendEsdEmcEmiFailure", 506, 70, [.u8, .u8, .u8, .optArr, .len], [.byte 0 0 0, .size 1, .byte 1 1 0, .size 1, .byte 2 2 0, .size 1, .optLoop 3 3 4]⟩,
  /- src/events/vscp_evt_diagnostic.c:3462-3496 `vscp_evt_diagnostic_sendTimeout` -/
  ⟨"diagnostic_sendTimeout", 506, 71, [.u8, .u8, .u8, .optArr, .len], [.byte 0 0 0, .size 1, .byte 1 1 0, .size 1, .byte 2 2 0, .size 1, .optLoop 3 3 4]⟩,
  /- src/events/vscp_evt_diagnostic.c:3510-3544 `vscp_evt_diagnostic_sendLcdFailure` -/
  ⟨"diagnostic_sendLcdFailure", 506, 72, [.u8, .u8, .u8, .optArr, .len], [.byte 0 0 0, .size 1, .byte 1 1 0, .size 1, .byte 2 2 0, .size 1, .optLoop 3 3 4]⟩,
  /- src/events/vscp_evt_diagnostic.c:3558-3592 `vscp_evt_diagnostic_sendTouchPanelFailure` -/
  ⟨"diagnostic_sendTouchPanelFailure", 506, 73, [.u8, .u8, .u8, .optArr, .len], [.byte 0 0 0, .size 1, .byte 1 1 0, .size 1, .byte 2 2 0, .size 1, .optLoop 3 3 4]⟩,
  /- src/events/vscp_evt_diagnostic.c:3606-3640 `vscp_evt_diagnostic_sendNoLoad` -/
  ⟨"diagnostic_sendNoLoad", 506, 74, [.u8, .u8, .u8, .optArr, .len], [.byte 0 0 0, .size 1, .byte 1 1 0, .size 1, .byte 2 2 0, .size 1, .optLoop 3 3 4]⟩,
  /- src/events/vscp_evt_diagnostic.c:3654-3688 `vscp_evt_diagnostic_sendCoolingFailure` -/
  ⟨"diagnostic_sendCoolingFailure", 506, 75, [.u8, .u8, .u8, .optArr, .len], [.byte 0 0 0, .size 1, .byte 1 1 0, .size 1, .byte 2 2 0, .size 1, .optLoop 3 3 4]⟩,
  /- src/events/vscp_evt_diagnostic.c:3702-3736 `vscp_evt_diagnostic_sendHeatingFailure` -/
  ⟨"diagnostic_sendHeatingFailure", 506, 76, [.u8, .u8, .u8, .optArr, .len], [.byte 0 0 0, .size 1, .byte 1 1 0, .size 1, .byte 2 2 0, .size 1, .optLoop 3 3 4]⟩,
  /- src/events/vscp_evt_diagnostic.c:3750-3784 `vscp_evt_diagnostic_sendTransmissionFailure` -/
  ⟨"diagnostic_sendTransmissionFailure", 506, 77, [.u8, .u8, .u8, .optArr, .len], [.byte 0 0 0, .size 1, .byte 1 1 0, .size 1, .byte 2 2 0, .size 1, .optLoop 3 3 4]⟩,
  /- src/events/vscp_evt_diagnostic.c:3798-3832 `vscp_evt_diagnostic_sendReceiptionFailure` -/
  ⟨"diagnostic_sendReceiptionFailure", 506, 78, [.u8, .u8, .u8, .optArr, .len], [.byte 0 0 0, .size 1, .byte 1 1 0, .size 1, .byte 2 2 0, .size 1, .optLoop 3 3 4]⟩,
  /- src/events/vscp_evt_diagnostic.c:3846-3880 `vscp_evt_diagnostic_sendExternalIcFailure` -/
  ⟨"diagnostic_sendExternalIcFailure", 506, 79, [.u8, .u8, .u8, .optArr, .len], [.byte 0 0 0, .size 1, .byte 1 1 0, .size 1, .byte 2 2 0, .size 1, .optLoop 3 3 4]⟩,
  /- src/events/vscp_evt_diagnostic.c:3894-3928 `vscp_evt_diagnostic_sendChargingOn` -/
  ⟨"diagnostic_sendChargingOn", 506, 80, [.u8, .u8, .u8, .optArr, .len], [.byte 0 0 0, .size 1, .byte 1 1 0, .size 1, .byte 2 2 0, .size 1, .optLoop 3 3 4]⟩,
  /- src/events/vscp_evt_diagnostic.c:3942-3976 `vscp_evt_diagnostic_sendChargingOff` -/
  ⟨"diagnostic_sendChargingOff", 506, 81, [.u8, .u8, .u8, .optArr, .len], [.byte 0 0 0, .size 1, .byte 1 1 0, .size 1, .byte 2 2 0, .size 1, .optLoop 3 3 4]⟩]

/-- src/events/vscp_evt_display.c: all send functions -/
def display : List Fn := [
  /- src/events/vscp_evt_display.c:79-88 `vscp_evt_display_sendGeneralEvent` -/
  ⟨"display_sendGeneralEvent", 102, 0, [], []⟩,
  /- src/events/vscp_evt_display.c:99-118 `vscp_evt_display_sendClearDisplay` -/
  ⟨"display_sendClearDisplay", 102, 1, [.u8, .u8, .u8], [.byte 0 0 0, .size 1, .byte 1 1 0, .size 1, .byte 2 2 0, .size 1]⟩,
  /- src/events/vscp_evt_display.c:131-156 `vscp_evt_display_sendPositionCursor` -/
  ⟨"display_sendPositionCursor", 102, 2, [.u8, .u8, .u8, .u8, .u8], [.byte 0 0 0, .size 1, .byte 1 1 0, .size 1, .byte 2 2 0, .size 1, .byte 3 3 0, .size 1, .byte 4 4 0, .size 1]⟩,
  /- src/events/vscp_evt_display.c:169-205 `vscp_evt_display_sendWriteDisplay` -/
  ⟨"display_sendWriteDisplay", 102, 3, [.u8, .u8, .u8, .arr, .len], [.need 3 4, .byte 0 0 0, .size 1, .byte 1 1 0, .size 1, .byte 2 2 0, .size 1, .loop 3 3 4]⟩,
  /- src/events/vscp_evt_display.c:218-254 `vscp_evt_display_sendWriteDisplayBuffer` -/
  ⟨"display_sendWriteDisplayBuffer", 102, 4, [.u8, .u8, .u8, .arr, .len], [.need 3 4, .byte 0 0 0, .size 1, .byte 1 1 0, .size 1, .byte 2 2 0, .size 1, .loop 3 3 4]⟩,
  /- src/events/vscp_evt_display.c:265-284 `vscp_evt_display_sendShowDisplayBuffer` -/
  ⟨"display_sendShowDisplayBuffer", 102, 5, [.u8, .u8, .u8], [.byte 0 0 0, .size 1, .byte 1 1 0, .size 1, .byte 2 2 0, .size 1]⟩,
  /- src/events/vscp_evt_display.c:296-329 `vscp_evt_display_sendSetDisplayBufferParameter` -/
  ⟨"display_sendSetDisplayBufferParameter", 102, 6, [.u8, .u8, .arr, .len], [.need 2 3, .byte 0 0 0, .size 1, .byte 1 1 0, .size 1, .loop 2 2 3]⟩,
  /- src/events/vscp_evt_display.c:342-378 `vscp_evt_display_sendShowText` -/
  ⟨"display_sendShowText", 102, 32, [.u8, .u8, .u8, .arr, .len], [.need 3 4, .byte 0 0 0, .size 1, .byte 1 1 0, .size 1, .byte 2 2 0, .size 1, .loop 3 3 4]⟩,
  /- src/events/vscp_evt_display.c:392-422 `vscp_evt_display_sendSetLed` -/
  ⟨"display_sendSetLed", 102, 48, [.u8, .u8, .u8, .u8, .u16, .u16], [.byte 0 0 0, .size 1, .byte 1 1 0, .size 1, .byte 2 2 0, .size 1, .byte 3 3 0, .size 1, .byte 4 4 8, .byte 5 4 0, .size 2, .byte 6 5 8, .byte 7 5 0, .size 2]⟩,
  /- src/events/vscp_evt_display.c:436-464 `vscp_evt_display_sendSetRgbColor` -/
  ⟨"display_sendSetRgbColor", 102, 49, [.u8, .u8, .u8, .u8, .u8, .u8], [.byte 0 0 0, .size 1, .byte 1 1 0, .size 1, .byte 2 2 0, .size 1, .byte 3 3 0, .size 1, .byte 4 4 0, .size 1, .byte 5 5 0, .size 1]⟩]

/-- src/events/vscp_evt_error.c: all send functions -/
def error : List Fn := [
  /- src/events/vscp_evt_error.c:86-120 `vscp_evt_error_sendSuccess` -/
  ⟨"error_sendSuccess", 508, 0, [.u8, .u8, .u8, .optArr, .len], [.byte 0 0 0, .size 1, .byte 1 1 0, .size 1, .byte 2 2 0, .size 1, .optLoop 3 3 4]⟩,
  /- src/events/vscp_evt_error.c:134-168 `vscp_evt_error_sendError` -/
  ⟨"error_sendError", 508, 1, [.u8, .u8, .u8, .optArr, .len], [.byte 0 0 0, .size 1, .byte 1 1 0, .size 1, .byte 2 2 0, .size 1, .optLoop 3 3 4]⟩,
  /- src/events/vscp_evt_error.c:182-216 `vscp_evt_error_sendChannelError` -/
  ⟨"error_sendChannelError", 508, 7, [.u8, .u8, .u8, .optArr, .len], [.byte 0 0 0, .size 1, .byte 1 1 0, .size 1, .byte 2 2 0, .size 1, .optLoop 3 3 4]⟩,
  /- src/events/vscp_evt_error.c:230-264 `vscp_evt_error_sendFifoEmptyError` -/
  ⟨"error_sendFifoEmptyError", 508, 8, [.u8, .u8, .u8, .optArr, .len], [.byte 0 0 0, .size 1, .byte 1 1 0, .size 1, .byte 2 2 0, .size 1, .optLoop 3 3 4]⟩,
  /- src/events/vscp_evt_error.c:278-312 `vscp_evt_error_sendFifoFullError` -/
  ⟨"error_sendFifoFullError", 508, 9, [.u8, .u8, .u8, .optArr, .len], [.byte 0 0 0, .size 1, .byte 1 1 0, .size 1, .byte 2 2 0, .size 1, .optLoop 3 3 4]⟩,
  /- src/events/vscp_evt_error.c:326-360 `vscp_evt_error_sendFifoSizeError` -/
  ⟨"error_sendFifoSizeError", 508, 10, [.u8, .u8, .u8, .optArr, .len], [.byte 0 0 0, .size 1, .byte 1 1 0, .size 1, .byte 2 2 0, .size 1, .optLoop 3 3 4]⟩,
  /- src/events/vscp_evt_error.c:374-408 `vscp_evt_error_sendFifoWaitError` -/
  ⟨"error_sendFifoWaitError", 508, 11, [.u8, .u8, .u8, .optArr, .len], [.byte 0 0 0, .size 1, .byte 1 1 0, .size 1, .byte 2 2 0, .size 1, .optLoop 3 3 4]⟩,
  /- src/events/vscp_evt_error.c:422-456 `vscp_evt_error_sendGenericError` -/
  ⟨"error_sendGenericError", 508, 12, [.u8, .u8, .u8, .optArr, .len], [.byte 0 0 0, .size 1, .byte 1 1 0, .size 1, .byte 2 2 0, .size 1, .optLoop 3 3 4]⟩,
  /- src/events/vscp_evt_error.c:470-504 `vscp_evt_error_sendHardwareError` -/
  ⟨"error_sendHardwareError", 508, 13, [.u8, .u8, .u8, .optArr, .len], [.byte 0 0 0, .size 1, .byte 1 1 0, .size 1, .byte 2 2 0, .size 1, .optLoop 3 3 4]⟩,
  /- src/events/vscp_evt_error.c:518-552 `vscp_evt_error_sendInitializationError` -/
  ⟨"error_sendInitializationError", 508, 14, [.u8, .u8, .u8, .optArr, .len], [.byte 0 0 0, .size 1, .byte 1 1 0, .size 1, .byte 2 2 0, .size 1, .optLoop 3 3 4]⟩,
  /- src/events/vscp_evt_error.c:566-600 `vscp_evt_error_sendMissingInitializationError` -/
  ⟨"error_sendMissingInitializationError", 508, 15, [.u8, .u8, .u8, .optArr, .len], [.byte 0 0 0, .size 1, .byte 1 1 0, .size 1, .byte 2 2 0, .size 1, .optLoop 3 3 4]⟩,
  /- src/events/vscp_evt_error.c:614-648 `vscp_evt_error_sendInitializationReady` -/
  ⟨"error_sendInitializationReady", 508, 16, [.u8, .u8, .u8, .optArr, .len], [.byte 0 0 0, .size 1, .byte 1 1 0, .size 1, .byte 2 2 0, .size 1, .optLoop 3 3 4]⟩,
  /- src/events/vscp_evt_error.c:662-696 `vscp_evt_error_sendNotSupported` -/
  ⟨"error_sendNotSupported", 508, 17, [.u8, .u8, .u8, .optArr, .len], [.byte 0 0 0, .size 1, .byte 1 1 0, .size 1, .byte 2 2 0, .size 1, .optLoop 3 3 4]⟩,
  /- src/events/vscp_evt_error.c:710-744 `vscp_evt_error_sendOverrunError` -/
  ⟨"error_sendOverrunError", 508, 18, [.u8, .u8, .u8, .optArr, .len], [.byte 0 0 0, .size 1, .byte 1 1 0, .size 1, .byte 2 2 0, .size 1, .optLoop 3 3 4]⟩,
  /- src/events/vscp_evt_error.c:758-792 `vscp_evt_error_sendReceiverEmptyError` -/
  ⟨"error_sendReceiverEmptyError", 508, 19, [.u8, .u8, .u8, .optArr, .len], [.byte 0 0 0, .size 1, .byte 1 1 0, .size 1, .byte 2 2 0, .size 1, .optLoop 3 3 4]⟩,
  /- src/events/vscp_evt_error.c:806-840 `vscp_evt_error_sendRegisterError` -/
  ⟨"error_sendRegisterError", 508, 20, [.u8, .u8, .u8, .optArr, .len], [.byte 0 0 0, .size 1, .byte 1 1 0, .size 1, .byte 2 2 0, .size 1, .optLoop 3 3 4]⟩,
  /- src/events/vscp_evt_error.c:854-888 `vscp_evt_error_sendTransmitterFullError` -/
  ⟨"error_sendTransmitterFullError", 508, 21, [.u8, .u8, .u8, .optArr, .len], [.byte 0 0 0, .size 1, .byte 1 1 0, .size 1, .byte 2 2 0, .size 1, .optLoop 3 3 4]⟩,
  /- src/events/vscp_evt_error.c:902-936 `vscp_evt_error_sendLibraryError` -/
  ⟨"error_sendLibraryError", 508, 28, [.u8, .u8, .u8, .optArr, .len], [.byte 0 0 0, .size 1, .byte 1 1 0, .size 1, .byte 2 2 0, .size 1, .optLoop 3 3 4]⟩,
  /- src/events/vscp_evt_error.c:950-984 `vscp_evt_error_sendProceduralAddressError` -/
  ⟨"error_sendProceduralAddressError", 508, 29, [.u8, .u8, .u8, .optArr, .len], [.byte 0 0 0, .size 1, .byte 1 1 0, .size 1, .byte 2 2 0, .size 1, .optLoop 3 3 4]⟩,
  /- src/events/vscp_evt_error.c:998-1032 `vscp_evt_error_sendOnlyOneInstanceError` -/
  ⟨"error_sendOnlyOneInstanceError", 508, 30, [.u8, .u8, .u8, .optArr, .len], [.byte 0 0 0, .size 1, .byte 1 1 0, .size 1, .byte 2 2 0, .size 1, .optLoop 3 3 4]⟩,
  /- src/events/vscp_evt_error.c:1046-1080 `vscp_evt_error_sendSubDriverError` -/
  ⟨"error_sendSubDriverError", 508, 31, [.u8, .u8, .u8, .optArr, .len], [.byte 0 0 0, .size 1, .byte 1 1 0, .size 1, .byte 2 2 0, .size 1, .optLoop 3 3 4]⟩,
  /- src/events/vscp_evt_error.c:1094-1128 `vscp_evt_error_sendTimeoutError` -/
  ⟨"error_sendTimeoutError", 508, 32, [.u8, .u8, .u8, .optArr, .len], [.byte 0 0 0, .size 1, .byte 1 1 0, .size 1, .byte 2 2 0, .size 1, .optLoop 3 3 4]⟩,
  /- src/events/vscp_evt_error.c:1142-1176 `vscp_evt_error_sendNotOpenError` -/
  ⟨"error_sendNotOpenError", 508, 33, [.u8, .u8, .u8, .optArr, .len], [.byte 0 0 0, .size 1, .byte 1 1 0, .size 1, .byte 2 2 0, .size 1, .optLoop 3 3 4]⟩,
  /- src/events/vscp_evt_error.c:1190-1224 `vscp_evt_error_sendParameterError` -/
  ⟨"error_sendParameterError", 508, 34, [.u8, .u8, .u8, .optArr, .len], [.byte 0 0 0, .size 1, .byte 1 1 0, .size 1, .byte 2 2 0, .size 1, .optLoop 3 3 4]⟩,
  /- src/events/vscp_evt_error.c:1238-1272 `vscp_evt_error_sendMemoryError` -/
  ⟨"error_sendMemoryError", 508, 35, [.u8, .u8, .u8, .optArr, .len], [.byte 0 0 0, .size 1, .byte 1 1 0, .size 1, .byte 2 2 0, .size 1, .optLoop 3 3 4]⟩,
  /- src/events/vscp_evt_error.c:1286-1320 `vscp_evt_error_sendInternalError` -/
  ⟨"error_sendInternalError", 508, 36, [.u8, .u8, .u8, .optArr, .len], [.byte 0 0 0, .size 1, .byte 1 1 0, .size 1, .byte 2 2 0, .size 1, .optLoop 3 3 4]⟩,
  /- src/events/vscp_evt_error.c:1334-1368 `vscp_evt_error_sendCommunicationError` -/
  ⟨"error_sendCommunicationError", 508, 37, [.u8, .u8, .u8, .optArr, .len], [.byte 0 0 0, .size 1, .byte 1 1 0, .size 1, .byte 2 2 0, .size 1, .optLoop 3 3 4]⟩,
  /- src/events/vscp_evt_error.c:1382-1416 `vscp_evt_error_sendUserError` -/
  ⟨"error_sendUserError", 508, 38, [.u8, .u8, .u8, .optArr, .len], [.byte 0 0 0, .size 1, .byte 1 1 0, .size 1, .byte 2 2 0, .size 1, .optLoop 3 3 4]⟩,
  /- src/events/vscp_evt_error.c:1430-1464 `vscp_evt_error_sendPasswordError` -/
  ⟨"error_sendPasswordError", 508, 39, [.u8, .u8, .u8, .optArr, .len], [.byte 0 0 0, .size 1, .byte 1 1 0, .size 1, .byte 2 2 0, .size 1, .optLoop 3 3 4]⟩,
  /- src/events/vscp_evt_error.c:1478-1512 `vscp_evt_error_sendConnectionError` -/
  ⟨"error_sendConnectionError", 508, 40, [.u8, .u8, .u8, .optArr, .len], [.byte 0 0 0, .size 1, .byte 1 1 0, .size 1, .byte 2 2 0, .size 1, .optLoop 3 3 4]⟩,
  /- src/events/vscp_evt_error.c:1526-1560 `vscp_evt_error_sendInvalidHandleError` -/
  ⟨"error_sendInvalidHandleError", 508, 41, [.u8, .u8, .u8, .optArr, .len], [.byte 0 0 0, .size 1, .byte 1 1 0, .size 1, .byte 2 2 0, .size 1, .optLoop 3 3 4]⟩,
  /- src/events/vscp_evt_error.c:1574-1608 `vscp_evt_error_sendOperationFailedError` -/
  ⟨"error_sendOperationFailedError", 508, 42, [.u8, .u8, .u8, .optArr, .len], [.byte 0 0 0, .size 1, .byte 1 1 0, .size 1, .byte 2 2 0, .size 1, .optLoop 3 3 4]⟩,
  /- src/events/vscp_evt_error.c:1622-1656 `vscp_evt_error_sendSuppliedBufferIsToSmallToFitContent` -/
  ⟨"error_sendSuppliedBufferIsToSmallToFitContent", 508, 43, [.u8, .u8, .u8, .optArr, .len], [.byte 0 0 0, .size 1, .byte 1 1 0, .size 1, .byte 2 2 0, .size 1, .optLoop 3 3 4]⟩,
  /- src/events/vscp_evt_error.c:1670-1704 `vscp_evt_error_sendRequestedItemIsUnknown` -/
  ⟨"error_sendRequestedItemIsUnknown", 508, 44, [.u8, .u8, .u8, .optArr, .len], [.byte 0 0 0, .size 1, .byte 1 1 0, .size 1, .byte 2 2 0, .size 1, .optLoop 3 3 4]⟩,
  /- src/events/vscp_evt_error.c:1718-1752 `vscp_evt_error_sendNameIsAlreadyInUse` -/
  ⟨"error_sendNameIsAlreadyInUse", 508, 45, [.u8, .u8, .u8, .optArr, .len], [.byte 0 0 0, .size 1, .byte 1 1 0, .size 1, .byte 2 2 0, .size 1, .optLoop 3 3 4]⟩,
  /- src/events/vscp_evt_error.c:1766-1800 `vscp_evt_error_sendErrorWhenWritingData` -/
  ⟨"error_sendErrorWhenWritingData", 508, 46, [.u8, .u8, .u8, .optArr, .len], [.byte 0 0 0, .size 1, .byte 1 1 0, .size 1, .byte 2 2 0, .size 1, .optLoop 3 3 4]⟩,
  /- src/events/vscp_evt_error.c:1814-1848 `vscp_evt_error_sendOperationStoppedOrAborted` -/
  ⟨"error_sendOperationStoppedOrAborted", 508, 47, [.u8, .u8, .u8, .optArr, .len], [.byte 0 0 0, .size 1, .byte 1 1 0, .size 1, .byte 2 2 0, .size 1, .optLoop 3 3 4]⟩,
  /- src/events/vscp_evt_error.c:1862-1896 `vscp_evt_error_sendPointerWithInvalidValue` -/
  ⟨"error_sendPointerWithInvalidValue", 508, 48, [.u8, .u8, .u8, .optArr, .len], [.byte 0 0 0, .size 1, .byte 1 1 0, .size 1, .byte 2 2 0, .size 1, .optLoop 3 3 4]⟩]

/-- src/events/vscp_evt_gnss.c: all send functions -/
def gnss : List Fn := [
  /- src/events/vscp_evt_gnss.c:79-88 `vscp_evt_gnss_sendGeneralEvent` -/
  ⟨"gnss_sendGeneralEvent", 206, 0, [], []⟩,
  /- src/events/vscp_evt_gnss.c:98-120 `vscp_evt_gnss_sendPosition` -/
  ⟨"gnss_sendPosition", 206, 1, [.f32, .f32], [.mem 0 0 3 false, .mem 1 0 2 false, .mem 2 0 1 false, .mem 3 0 0 false, .size 4, .mem 4 1 3 false, .mem 5 1 2 false, .mem 6 1 1 false, .mem 7 1 0 false, .size 4]⟩,
  /- src/events/vscp_evt_gnss.c:129-142 `vscp_evt_gnss_sendSatellites` -/
  ⟨"gnss_sendSatellites", 206, 2, [.u8], [.byte 0 0 0, .size 1]⟩]

/-- src/events/vscp_evt_information.c: all send functions -/
def information : List Fn := [
  /- src/events/vscp_evt_information.c:79-88 `vscp_evt_information_sendGeneralEvent` -/
  ⟨"information_sendGeneralEvent", 20, 0, [], []⟩,
  /- src/events/vscp_evt_information.c:101-131 `vscp_evt_information_sendButton` -/
  ⟨"information_sendButton", 20, 1, [.u8, .u8, .u8, .u16, .opt16], [.byte 0 0 0, .size 1, .byte 1 1 0, .size 1, .byte 2 2 0, .size 1, .byte 3 3 8, .byte 4 3 0, .size 2, .opt 4 [(5, 8), (6, 0)] 2]⟩,
  /- src/events/vscp_evt_information.c:145-172 `vscp_evt_information_sendMouse` -/
  ⟨"information_sendMouse", 20, 2, [.u8, .u8, .u8, .u16, .u16], [.byte 0 0 0, .size 1, .byte 1 1 0, .size 1, .byte 2 2 0, .size 1, .byte 3 3 8, .byte 4 3 0, .size 2, .byte 5 4 8, .byte 6 4 0, .size 2]⟩,
  /- src/events/vscp_evt_information.c:183-202 `vscp_evt_information_sendOn` -/
  ⟨"information_sendOn", 20, 3, [.u8, .u8, .u8], [.byte 0 0 0, .size 1, .byte 1 1 0, .size 1, .byte 2 2 0, .size 1]⟩,
  /- src/events/vscp_evt_information.c:213-232 `vscp_evt_information_sendOff` -/
  ⟨"information_sendOff", 20, 4, [.u8, .u8, .u8], [.byte 0 0 0, .size 1, .byte 1 1 0, .size 1, .byte 2 2 0, .size 1]⟩,
  /- src/events/vscp_evt_information.c:243-262 `vscp_evt_information_sendAlive` -/
  ⟨"information_sendAlive", 20, 5, [.u8, .u8, .u8], [.byte 0 0 0, .size 1, .byte 1 1 0, .size 1, .byte 2 2 0, .size 1]⟩,
  /- src/events/vscp_evt_information.c:273-292 `vscp_evt_information_sendTerminating` -/
  ⟨"information_sendTerminating", 20, 6, [.u8, .u8, .u8], [.byte 0 0 0, .size 1, .byte 1 1 0, .size 1, .byte 2 2 0, .size 1]⟩,
  /- src/events/vscp_evt_information.c:303-322 `vscp_evt_information_sendOpened` -/
  ⟨"information_sendOpened", 20, 7, [.u8, .u8, .u8], [.byte 0 0 0, .size 1, .byte 1 1 0, .size 1, .byte 2 2 0, .size 1]⟩,
  /- src/events/vscp_evt_information.c:333-352 `vscp_evt_information_sendClosed` -/
  ⟨"information_sendClosed", 20, 8, [.u8, .u8, .u8], [.byte 0 0 0, .size 1, .byte 1 1 0, .size 1, .byte 2 2 0, .size 1]⟩,
  /- src/events/vscp_evt_information.c:365-399 `vscp_evt_information_sendNodeHeartbeat` -/
  ⟨"information_sendNodeHeartbeat", 20, 9, [.u8, .u8, .u8, .optArr, .len], [.byte 0 0 0, .size 1, .byte 1 1 0, .size 1, .byte 2 2 0, .size 1, .optLoop 3 3 4]⟩,
  /- src/events/vscp_evt_information.c:410-429 `vscp_evt_information_sendBelowLimit` -/
  ⟨"information_sendBelowLimit", 20, 10, [.u8, .u8, .u8], [.byte 0 0 0, .size 1, .byte 1 1 0, .size 1, .byte 2 2 0, .size 1]⟩,
  /- src/events/vscp_evt_information.c:440-459 `vscp_evt_information_sendAboveLimit` -/
  ⟨"information_sendAboveLimit", 20, 11, [.u8, .u8, .u8], [.byte 0 0 0, .size 1, .byte 1 1 0, .size 1, .byte 2 2 0, .size 1]⟩,
  /- src/events/vscp_evt_information.c:470-489 `vscp_evt_information_sendPulse` -/
  ⟨"information_sendPulse", 20, 12, [.u8, .u8, .u8], [.byte 0 0 0, .size 1, .byte 1 1 0, .size 1, .byte 2 2 0, .size 1]⟩,
  /- src/events/vscp_evt_information.c:500-519 `vscp_evt_information_sendError` -/
  ⟨"information_sendError", 20, 13, [.u8, .u8, .u8], [.byte 0 0 0, .size 1, .byte 1 1 0, .size 1, .byte 2 2 0, .size 1]⟩,
  /- src/events/vscp_evt_information.c:530-549 `vscp_evt_information_sendResumed` -/
  ⟨"information_sendResumed", 20, 14, [.u8, .u8, .u8], [.byte 0 0 0, .size 1, .byte 1 1 0, .size 1, .byte 2 2 0, .size 1]⟩,
  /- src/events/vscp_evt_information.c:560-579 `vscp_evt_information_sendPaused` -/
  ⟨"information_sendPaused", 20, 15, [.u8, .u8, .u8], [.byte 0 0 0, .size 1, .byte 1 1 0, .size 1, .byte 2 2 0, .size 1]⟩,
  /- src/events/vscp_evt_information.c:590-609 `vscp_evt_information_sendSleeping` -/
  ⟨"information_sendSleeping", 20, 16, [.u8, .u8, .u8], [.byte 0 0 0, .size 1, .byte 1 1 0, .size 1, .byte 2 2 0, .size 1]⟩,
  /- src/events/vscp_evt_information.c:620-639 `vscp_evt_information_sendGoodMorning` -/
  ⟨"information_sendGoodMorning", 20, 17, [.u8, .u8, .u8], [.byte 0 0 0, .size 1, .byte 1 1 0, .size 1, .byte 2 2 0, .size 1]⟩,
  /- src/events/vscp_evt_information.c:650-669 `vscp_evt_information_sendGoodDay` -/
  ⟨"information_sendGoodDay", 20, 18, [.u8, .u8, .u8], [.byte 0 0 0, .size 1, .byte 1 1 0, .size 1, .byte 2 2 0, .size 1]⟩,
  /- src/events/vscp_evt_information.c:680-699 `vscp_evt_information_sendGoodAfternoon` -/
  ⟨"information_sendGoodAfternoon", 20, 19, [.u8, .u8, .u8], [.byte 0 0 0, .size 1, .byte 1 1 0, .size 1, .byte 2 2 0, .size 1]⟩,
  /- src/events/vscp_evt_information.c:710-729 `vscp_evt_information_sendGoodEvening` -/
  ⟨"information_sendGoodEvening", 20, 20, [.u8, .u8, .u8], [.byte 0 0 0, .size 1, .byte 1 1 0, .size 1, .byte 2 2 0, .size 1]⟩,
  /- src/events/vscp_evt_information.c:740-759 `vscp_evt_information_sendGoodNight` -/
  ⟨"information_sendGoodNight", 20, 21, [.u8, .u8, .u8], [.byte 0 0 0, .size 1, .byte 1 1 0, .size 1, .byte 2 2 0, .size 1]⟩,
  /- src/events/vscp_evt_information.c:770-789 `vscp_evt_information_sendSeeYouSoon` -/
  ⟨"information_sendSeeYouSoon", 20, 22, [.u8, .u8, .u8], [.byte 0 0 0, .size 1, .byte 1 1 0, .size 1, .byte 2 2 0, .size 1]⟩,
  /- src/events/vscp_evt_information.c:800-819 `vscp_evt_information_sendGoodbye` -/
  ⟨"information_sendGoodbye", 20, 23, [.u8, .u8, .u8], [.byte 0 0 0, .size 1, .byte 1 1 0, .size 1, .byte 2 2 0, .size 1]⟩,
  /- src/events/vscp_evt_information.c:830-849 `vscp_evt_information_sendStop` -/
  ⟨"information_sendStop", 20, 24, [.u8, .u8, .u8], [.byte 0 0 0, .size 1, .byte 1 1 0, .size 1, .byte 2 2 0, .size 1]⟩,
  /- src/events/vscp_evt_information.c:860-879 `vscp_evt_information_sendStart` -/
  ⟨"information_sendStart", 20, 25, [.u8, .u8, .u8], [.byte 0 0 0, .size 1, .byte 1 1 0, .size 1, .byte 2 2 0, .size 1]⟩,
  /- src/events/vscp_evt_information.c:890-909 `vscp_evt_information_sendResetcompleted` -/
  ⟨"information_sendResetcompleted", 20, 26, [.u8, .u8, .u8], [.byte 0 0 0, .size 1, .byte 1 1 0, .size 1, .byte 2 2 0, .size 1]⟩,
  /- src/events/vscp_evt_information.c:920-939 `vscp_evt_information_sendInterrupted` -/
  ⟨"information_sendInterrupted", 20, 27, [.u8, .u8, .u8], [.byte 0 0 0, .size 1, .byte 1 1 0, .size 1, .byte 2 2 0, .size 1]⟩,
  /- src/events/vscp_evt_information.c:950-969 `vscp_evt_information_sendPreparingtosleep` -/
  ⟨"information_sendPreparingtosleep", 20, 28, [.u8, .u8, .u8], [.byte 0 0 0, .size 1, .byte 1 1 0, .size 1, .byte 2 2 0, .size 1]⟩,
  /- src/events/vscp_evt_information.c:980-999 `vscp_evt_information_sendWokenup` -/
  ⟨"information_sendWokenup", 20, 29, [.u8, .u8, .u8], [.byte 0 0 0, .size 1, .byte 1 1 0, .size 1, .byte 2 2 0, .size 1]⟩,
  /- src/events/vscp_evt_information.c:1010-1029 `vscp_evt_information_sendDusk` -/
  ⟨"information_sendDusk", 20, 30, [.u8, .u8, .u8], [.byte 0 0 0, .size 1, .byte 1 1 0, .size 1, .byte 2 2 0, .size 1]⟩,
  /- src/events/vscp_evt_information.c:1040-1059 `vscp_evt_information_sendDawn` -/
  ⟨"information_sendDawn", 20, 31, [.u8, .u8, .u8], [.byte 0 0 0, .size 1, .byte 1 1 0, .size 1, .byte 2 2 0, .size 1]⟩,
  /- src/events/vscp_evt_information.c:1070-1089 `vscp_evt_information_sendActive` -/
  ⟨"information_sendActive", 20, 32, [.u8, .u8, .u8], [.byte 0 0 0, .size 1, .byte 1 1 0, .size 1, .byte 2 2 0, .size 1]⟩,
  /- src/events/vscp_evt_information.c:1100-1119 `vscp_evt_information_sendInactive` -/
  ⟨"information_sendInactive", 20, 33, [.u8, .u8, .u8], [.byte 0 0 0, .size 1, .byte 1 1 0, .size 1, .byte 2 2 0, .size 1]⟩,
  /- src/events/vscp_evt_information.c:1130-1149 `vscp_evt_information_sendBusy` -/
  ⟨"information_sendBusy", 20, 34, [.u8, .u8, .u8], [.byte 0 0 0, .size 1, .byte 1 1 0, .size 1, .byte 2 2 0, .size 1]⟩,
  /- src/events/vscp_evt_information.c:1160-1179 `vscp_evt_information_sendIdle` -/
  ⟨"information_sendIdle", 20, 35, [.u8, .u8, .u8], [.byte 0 0 0, .size 1, .byte 1 1 0, .size 1, .byte 2 2 0, .size 1]⟩,
  /- src/events/vscp_evt_information.c:1192-1222 `vscp_evt_information_sendStreamData` -/
  ⟨"information_sendStreamData", 20, 36, [.u8, .arr, .len], [.need 1 2, .byte 0 0 0, .size 1, .loop 1 1 2]⟩,
  /- src/events/vscp_evt_information.c:1237-1276 `vscp_evt_information_sendTokenActivity` -/
  ⟨"information_sendTokenActivity", 20, 37, [.u8, .u8, .u8, .u8, .arr, .len], [.need 4 5, .byte 0 0 0, .size 1, .byte 1 1 0, .size 1, .byte 2 2 0, .size 1, .byte 3 3 0, .size 1, .loop 4 4 5]⟩,
  /- src/events/vscp_evt_information.c:1291-1327 `vscp_evt_information_sendStreamDataWithZone` -/
  ⟨"information_sendStreamDataWithZone", 20, 38, [.u8, .u8, .u8, .arr, .len], [.need 3 4, .byte 0 0 0, .size 1, .byte 1 1 0, .size 1, .byte 2 2 0, .size 1, .loop 3 3 4]⟩,
  /- src/events/vscp_evt_information.c:1340-1367 `vscp_evt_information_sendConfirm` -/
  ⟨"information_sendConfirm", 20, 39, [.u8, .u8, .u8, .u16, .u16], [.byte 0 0 0, .size 1, .byte 1 1 0, .size 1, .byte 2 2 0, .size 1, .byte 3 3 8, .byte 4 3 0, .size 2, .byte 5 4 8, .byte 6 4 0, .size 2]⟩,
  /- src/events/vscp_evt_information.c:1378-1397 `vscp_evt_information_sendLevelChanged` -/
  ⟨"information_sendLevelChanged", 20, 40, [.u8, .u8, .u8], [.byte 0 0 0, .size 1, .byte 1 1 0, .size 1, .byte 2 2 0, .size 1]⟩,
  /- src/events/vscp_evt_information.c:1408-1427 `vscp_evt_information_sendWarning` -/
  ⟨"information_sendWarning", 20, 41, [.u8, .u8, .u8], [.byte 0 0 0, .size 1, .byte 1 1 0, .size 1, .byte 2 2 0, .size 1]⟩,
  /- src/events/vscp_evt_information.c:1440-1465 `vscp_evt_information_sendState` -/
  ⟨"information_sendState", 20, 42, [.u8, .u8, .u8, .u8, .u8], [.byte 0 0 0, .size 1, .byte 1 1 0, .size 1, .byte 2 2 0, .size 1, .byte 3 3 0, .size 1, .byte 4 4 0, .size 1]⟩,
  /- src/events/vscp_evt_information.c:1476-1495 `vscp_evt_information_sendActionTrigger` -/
  ⟨"information_sendActionTrigger", 20, 43, [.u8, .u8, .u8], [.byte 0 0 0, .size 1, .byte 1 1 0, .size 1, .byte 2 2 0, .size 1]⟩,
  /- src/events/vscp_evt_information.c:1506-1525 `vscp_evt_information_sendSunrise` -/
  ⟨"information_sendSunrise", 20, 44, [.u8, .u8, .u8], [.byte 0 0 0, .size 1, .byte 1 1 0, .size 1, .byte 2 2 0, .size 1]⟩,
  /- src/events/vscp_evt_information.c:1536-1555 `vscp_evt_information_sendSunset` -/
  ⟨"information_sendSunset", 20, 45, [.u8, .u8, .u8], [.byte 0 0 0, .size 1, .byte 1 1 0, .size 1, .byte 2 2 0, .size 1]⟩,
  /- src/events/vscp_evt_information.c:1567-1589 `vscp_evt_information_sendStartOfRecord` -/
  ⟨"information_sendStartOfRecord", 20, 46, [.u8, .u8, .u8, .u8], [.byte 0 0 0, .size 1, .byte 1 1 0, .size 1, .byte 2 2 0, .size 1, .byte 3 3 0, .size 1]⟩,
  /- src/events/vscp_evt_information.c:1600-1619 `vscp_evt_information_sendEndOfRecord` -/
  ⟨"information_sendEndOfRecord", 20, 47, [.u8, .u8, .u8], [.byte 0 0 0, .size 1, .byte 1 1 0, .size 1, .byte 2 2 0, .size 1]⟩,
  /- src/events/vscp_evt_information.c:1631-1653 `vscp_evt_information_sendPreSetActive` -/
  ⟨"information_sendPreSetActive", 20, 48, [.u8, .u8, .u8, .u8], [.byte 0 0 0, .size 1, .byte 1 1 0, .size 1, .byte 2 2 0, .size 1, .byte 2 3 0, .size 1]⟩,
  /- src/events/vscp_evt_information.c:1664-1683 `vscp_evt_information_sendDetect` -/
  ⟨"information_sendDetect", 20, 49, [.u8, .u8, .u8], [.byte 0 0 0, .size 1, .byte 1 1 0, .size 1, .byte 2 2 0, .size 1]⟩,
  /- src/events/vscp_evt_information.c:1694-1713 `vscp_evt_information_sendOverflow` -/
  ⟨"information_sendOverflow", 20, 50, [.u8, .u8, .u8], [.byte 0 0 0, .size 1, .byte 1 1 0, .size 1, .byte 2 2 0, .size 1]⟩,
  /- src/events/vscp_evt_information.c:1727-1763 `vscp_evt_information_sendBigLevelChanged` -/
  ⟨"information_sendBigLevelChanged", 20, 51, [.u8, .u8, .u8, .arr, .len], [.need 3 4, .byte 0 0 0, .size 1, .byte 1 1 0, .size 1, .byte 2 2 0, .size 1, .loop 3 3 4]⟩,
  /- src/events/vscp_evt_information.c:1774-1793 `vscp_evt_information_sendCivilSunriseTwilightTime` -/
  ⟨"information_sendCivilSunriseTwilightTime", 20, 52, [.u8, .u8, .u8], [.byte 0 0 0, .size 1, .byte 1 1 0, .size 1, .byte 2 2 0, .size 1]⟩,
  /- src/events/vscp_evt_information.c:1804-1823 `vscp_evt_information_sendCivilSunsetTwilightTime` -/
  ⟨"information_sendCivilSunsetTwilightTime", 20, 53, [.u8, .u8, .u8], [.byte 0 0 0, .size 1, .byte 1 1 0, .size 1, .byte 2 2 0, .size 1]⟩,
  /- src/events/vscp_evt_information.c:1834-1853 `vscp_evt_information_sendNauticalSunriseTwilightTime` -/
  ⟨"information_sendNauticalSunriseTwilightTime", 20, 54, [.u8, .u8, .u8], [.byte 0 0 0, .size 1, .byte 1 1 0, .size 1, .byte 2 2 0, .size 1]⟩,
  /- src/events/vscp_evt_information.c:1864-1883 `vscp_evt_information_sendNauticalSunsetTwilightTime` -/
  ⟨"information_sendNauticalSunsetTwilightTime", 20, 55, [.u8, .u8, .u8], [.byte 0 0 0, .size 1, .byte 1 1 0, .size 1, .byte 2 2 0, .size 1]⟩,
  /- src/events/vscp_evt_information.c:1894-1913 `vscp_evt_information_sendAstronomicalSunriseTwilightTime` -/
  ⟨"information_sendAstronomicalSunriseTwilightTime", 20, 56, [.u8, .u8, .u8], [.byte 0 0 0, .size 1, .byte 1 1 0, .size 1, .byte 2 2 0, .size 1]⟩,
  /- src/events/vscp_evt_information.c:1924-1943 `vscp_evt_information_sendAstronomicalSunsetTwilightTime` -/
  ⟨"information_sendAstronomicalSunsetTwilightTime", 20, 57, [.u8, .u8, .u8], [.byte 0 0 0, .size 1, .byte 1 1 0, .size 1, .byte 2 2 0, .size 1]⟩,
  /- src/events/vscp_evt_information.c:1954-1973 `vscp_evt_information_sendCalculatedNoon` -/
  ⟨"information_sendCalculatedNoon", 20, 58, [.u8, .u8, .u8], [.byte 0 0 0, .size 1, .byte 1 1 0, .size 1, .byte 2 2 0, .size 1]⟩,
  /- src/events/vscp_evt_information.c:1984-2003 `vscp_evt_information_sendShutterUp` -/
  ⟨"information_sendShutterUp", 20, 59, [.u8, .u8, .u8], [.byte 0 0 0, .size 1, .byte 1 1 0, .size 1, .byte 2 2 0, .size 1]⟩,
  /- src/events/vscp_evt_information.c:2014-2033 `vscp_evt_information_sendShutterDown` -/
  ⟨"information_sendShutterDown", 20, 60, [.u8, .u8, .u8], [.byte 0 0 0, .size 1, .byte 1 1 0, .size 1, .byte 2 2 0, .size 1]⟩,
  /- src/events/vscp_evt_information.c:2044-2063 `vscp_evt_information_sendShutterLeft` -/
  ⟨"information_sendShutterLeft", 20, 61, [.u8, .u8, .u8], [.byte 0 0 0, .size 1, .byte 1 1 0, .size 1, .byte 2 2 0, .size 1]⟩,
  /- src/events/vscp_evt_information.c:2074-2093 `vscp_evt_information_sendShutterRight` -/
  ⟨"information_sendShutterRight", 20, 62, [.u8, .u8, .u8], [.byte 0 0 0, .size 1, .byte 1 1 0, .size 1, .byte 2 2 0, .size 1]⟩,
  /- src/events/vscp_evt_information.c:2104-2123 `vscp_evt_information_sendShutterReachedTopEnd` -/
  ⟨"information_sendShutterReachedTopEnd", 20, 63, [.u8, .u8, .u8], [.byte 0 0 0, .size 1, .byte 1 1 0, .size 1, .byte 2 2 0, .size 1]⟩,
  /- src/events/vscp_evt_information.c:2134-2153 `vscp_evt_information_sendShutterReachedBottomEnd` -/
  ⟨"information_sendShutterReachedBottomEnd", 20, 64, [.u8, .u8, .u8], [.byte 0 0 0, .size 1, .byte 1 1 0, .size 1, .byte 2 2 0, .size 1]⟩,
  /- src/events/vscp_evt_information.c:2164-2183 `vscp_evt_information_sendShutterReachedMiddleEnd` -/
  ⟨"information_sendShutterReachedMiddleEnd", 20, 65, [.u8, .u8, .u8], [.byte 0 0 0, .size 1, .byte 1 1 0, .size 1, .byte 2 2 0, .size 1]⟩,
  /- src/events/vscp_evt_information.c:2194-2213 `vscp_evt_information_sendShutterReachedPresetEnd` -/
  ⟨"information_sendShutterReachedPresetEnd", 20, 66, [.u8, .u8, .u8], [.byte 0 0 0, .size 1, .byte 1 1 0, .size 1, .byte 2 2 0, .size 1]⟩,
  /- src/events/vscp_evt_information.c:2224-2243 `vscp_evt_information_sendShutterReachedPresetLeft` -/
  ⟨"information_sendShutterReachedPresetLeft", 20, 67, [.u8, .u8, .u8], [.byte 0 0 0, .size 1, .byte 1 1 0, .size 1, .byte 2 2 0, .size 1]⟩,
  /- src/events/vscp_evt_information.c:2254-2273 `vscp_evt_information_sendShutterReachedPresetRight` -/
  ⟨"information_sendShutterReachedPresetRight", 20, 68, [.u8, .u8, .u8], [.byte 0 0 0, .size 1, .byte 1 1 0, .size 1, .byte 2 2 0, .size 1]⟩,
  /- src/events/vscp_evt_information.c:2284-2303 `vscp_evt_information_sendLongClick` -/
  ⟨"information_sendLongClick", 20, 69, [.u8, .u8, .u8], [.byte 0 0 0, .size 1, .byte 1 1 0, .size 1, .byte 2 2 0, .size 1]⟩,
  /- src/events/vscp_evt_information.c:2314-2333 `vscp_evt_information_sendSingleClick` -/
  ⟨"information_sendSingleClick", 20, 70, [.u8, .u8, .u8], [.byte 0 0 0, .size 1, .byte 1 1 0, .size 1, .byte 2 2 0, .size 1]⟩,
  /- src/events/vscp_evt_information.c:2344-2363 `vscp_evt_information_sendDoubleClick` -/
  ⟨"information_sendDoubleClick", 20, 71, [.u8, .u8, .u8], [.byte 0 0 0, .size 1, .byte 1 1 0, .size 1, .byte 2 2 0, .size 1]⟩,
  /- src/events/vscp_evt_information.c:2378-2409 `vscp_evt_information_sendDate` -/
  ⟨"information_sendDate", 20, 72, [.u8, .u8, .u8, .u8, .u8, .u8, .u8], [.byte 0 0 0, .size 1, .byte 1 1 0, .size 1, .byte 2 2 0, .size 1, .byte 3 3 0, .size 1, .byte 4 4 0, .size 1, .byte 5 5 0, .size 1, .byte 6 6 0, .size 1]⟩,
  /- src/events/vscp_evt_information.c:2424-2456 `vscp_evt_information_sendTime` -/
  ⟨"information_sendTime", 20, 73, [.u8, .u8, .u8, .u8, .u8, .u8, .u16], [.byte 0 0 0, .size 1, .byte 1 1 0, .size 1, .byte 2 2 0, .size 1, .byte 3 3 0, .size 1, .byte 4 4 0, .size 1, .byte 5 5 0, .size 1, .byte 6 6 8, .byte 7 6 0, .size 2]⟩,
  /- src/events/vscp_evt_information.c:2468-2490 `vscp_evt_information_sendWeekday` -/
  ⟨"information_sendWeekday", 20, 74, [.u8, .u8, .u8, .u8], [.byte 0 0 0, .size 1, .byte 1 1 0, .size 1, .byte 2 2 0, .size 1, .byte 3 3 0, .size 1]⟩,
  /- src/events/vscp_evt_information.c:2501-2520 `vscp_evt_information_sendLock` -/
  ⟨"information_sendLock", 20, 75, [.u8, .u8, .u8], [.byte 0 0 0, .size 1, .byte 1 1 0, .size 1, .byte 2 2 0, .size 1]⟩,
  /- src/events/vscp_evt_information.c:2531-2550 `vscp_evt_information_sendUnlock` -/
  ⟨"information_sendUnlock", 20, 76, [.u8, .u8, .u8], [.byte 0 0 0, .size 1, .byte 1 1 0, .size 1, .byte 2 2 0, .size 1]⟩,
  /- src/events/vscp_evt_information.c:2563-2599 `vscp_evt_information_sendDatetime` -/
  ⟨"information_sendDatetime", 20, 77, [.u8, .u8, .u8, .arr, .len], [.need 3 4, .byte 0 0 0, .size 1, .byte 1 1 0, .size 1, .byte 2 2 0, .size 1, .loop 2 3 4]⟩,
  /- src/events/vscp_evt_information.c:2610-2629 `vscp_evt_information_sendRising` -/
  ⟨"information_sendRising", 20, 78, [.u8, .u8, .u8], [.byte 0 0 0, .size 1, .byte 1 1 0, .size 1, .byte 2 2 0, .size 1]⟩,
  /- src/events/vscp_evt_information.c:2640-2659 `vscp_evt_information_sendFalling` -/
  ⟨"information_sendFalling", 20, 79, [.u8, .u8, .u8], [.byte 0 0 0, .size 1, .byte 1 1 0, .size 1, .byte 2 2 0, .size 1]⟩,
  /- src/events/vscp_evt_information.c:2670-2689 `vscp_evt_information_sendUpdated` -/
  ⟨"information_sendUpdated", 20, 80, [.u8, .u8, .u8], [.byte 0 0 0, .size 1, .byte 1 1 0, .size 1, .byte 2 2 0, .size 1]⟩,
  /- src/events/vscp_evt_information.c:2700-2719 `vscp_evt_information_sendConnect` -/
  ⟨"information_sendConnect", 20, 81, [.u8, .u8, .u8], [.byte 0 0 0, .size 1, .byte 1 1 0, .size 1, .byte 2 2 0, .size 1]⟩,
  /- src/events/vscp_evt_information.c:2730-2749 `vscp_evt_information_sendDisconnect` -/
  ⟨"information_sendDisconnect", 20, 82, [.u8, .u8, .u8], [.byte 0 0 0, .size 1, .byte 1 1 0, .size 1, .byte 2 2 0, .size 1]⟩,
  /- src/events/vscp_evt_information.c:2760-2779 `vscp_evt_information_sendReconnect` -/
  ⟨"information_sendReconnect", 20, 83, [.u8, .u8, .u8], [.byte 0 0 0, .size 1, .byte 1 1 0, .size 1, .byte 2 2 0, .size 1]⟩,
  /- src/events/vscp_evt_information.c:2790-2809 `vscp_evt_information_sendEnter` -/
  ⟨"information_sendEnter", 20, 84, [.u8, .u8, .u8], [.byte 0 0 0, .size 1, .byte 1 1 0, .size 1, .byte 2 2 0, .size 1]⟩,
  /- src/events/vscp_evt_information.c:2820-2839 `vscp_evt_information_sendExit` -/
  ⟨"information_sendExit", 20, 85, [.u8, .u8, .u8], [.byte 0 0 0, .size 1, .byte 1 1 0, .size 1, .byte 2 2 0, .size 1]⟩,
  /- src/events/vscp_evt_information.c:2853-2887 `vscp_evt_information_sendIncremented` -/
  ⟨"information_sendIncremented", 20, 86, [.u8, .u8, .u8, .optArr, .len], [.byte 0 0 0, .size 1, .byte 1 1 0, .size 1, .byte 2 2 0, .size 1, .optLoop 3 3 4]⟩,
  /- src/events/vscp_evt_information.c:2901-2935 `vscp_evt_information_sendDecremented` -/
  ⟨"information_sendDecremented", 20, 87, [.u8, .u8, .u8, .optArr, .len], [.byte 0 0 0, .size 1, .byte 1 1 0, .size 1, .byte 2 2 0, .size 1, .optLoop 3 3 4]⟩,
  /- src/events/vscp_evt_information.c:2947-2973 `vscp_evt_information_sendProximityDetected` -/
  ⟨"information_sendProximityDetected", 20, 88, [.u8, .u8, .u8, .opt16], [.byte 0 0 0, .size 1, .byte 1 1 0, .size 1, .byte 2 2 0, .size 1, .opt 3 [(3, 8), (4, 0)] 2]⟩]

/-- src/events/vscp_evt_ir.c: all send functions -/
def ir : List Fn := [
  /- src/events/vscp_evt_ir.c:79-88 `vscp_evt_ir_sendGeneralEvent` -/
  ⟨"ir_sendGeneralEvent", 110, 0, [], []⟩,
  /- src/events/vscp_evt_ir.c:99-118 `vscp_evt_ir_sendRc5SendReceive` -/
  ⟨"ir_sendRc5SendReceive", 110, 1, [.u8, .u8, .u8], [.byte 0 0 0, .size 1, .byte 1 1 0, .size 1, .byte 2 2 0, .size 1]⟩,
  /- src/events/vscp_evt_ir.c:129-148 `vscp_evt_ir_sendSony12BitSendReceive` -/
  ⟨"ir_sendSony12BitSendReceive", 110, 3, [.u8, .u8, .u8], [.byte 0 0 0, .size 1, .byte 1 1 0, .size 1, .byte 2 2 0, .size 1]⟩,
  /- src/events/vscp_evt_ir.c:164-198 `vscp_evt_ir_sendLircLinuxInfraredRemoteControl` -/
  ⟨"ir_sendLircLinuxInfraredRemoteControl", 110, 32, [.u8, .u8, .u8, .u8, .u8, .u8, .u8, .u8], [.byte 0 0 0, .size 1, .byte 1 1 0, .size 1, .byte 2 2 0, .size 1, .byte 3 3 0, .size 1, .byte 4 4 0, .size 1, .byte 5 5 0, .size 1, .byte 6 6 0, .size 1, .byte 7 7 0, .size 1]⟩,
  /- src/events/vscp_evt_ir.c:210-233 `vscp_evt_ir_sendVscpAbstractRemoteFormat` -/
  ⟨"ir_sendVscpAbstractRemoteFormat", 110, 48, [.u16, .u8, .u8, .u8], [.byte 0 0 8, .byte 1 0 0, .size 2, .byte 2 1 0, .size 1, .byte 3 2 0, .size 1, .byte 4 3 0, .size 1]⟩,
  /- src/events/vscp_evt_ir.c:246-274 `vscp_evt_ir_sendMapitoRemoteFormat` -/
  ⟨"ir_sendMapitoRemoteFormat", 110, 49, [.u8, .u8, .u8, .u32, .u8], [.byte 0 0 0, .size 1, .byte 1 1 0, .size 1, .byte 2 2 0, .size 1, .byte 3 3 24, .byte 4 3 16, .byte 5 3 8, .byte 6 3 0, .size 4, .byte 7 4 0, .size 1]⟩]

/-- src/events/vscp_evt_log.c: all send functions -/
def log : List Fn := [
  /- src/events/vscp_evt_log.c:79-88 `vscp_evt_log_sendGeneralEvent` -/
  ⟨"log_sendGeneralEvent", 509, 0, [], []⟩,
  /- src/events/vscp_evt_log.c:101-137 `vscp_evt_log_sendLogEvent` -/
  ⟨"log_sendLogEvent", 509, 1, [.u8, .u8, .u8, .arr, .len], [.need 3 4, .byte 0 0 0, .size 1, .byte 1 1 0, .size 1, .byte 2 2 0, .size 1, .loop 3 3 4]⟩,
  /- src/events/vscp_evt_log.c:146-159 `vscp_evt_log_sendLogStart` -/
  ⟨"log_sendLogStart", 509, 2, [.u8], [.byte 0 0 0, .size 1]⟩,
  /- src/events/vscp_evt_log.c:168-181 `vscp_evt_log_sendLogStop` -/
  ⟨"log_sendLogStop", 509, 3, [.u8], [.byte 0 0 0, .size 1]⟩,
  /- src/events/vscp_evt_log.c:190-203 `vscp_evt_log_sendLogLevel` -/
  ⟨"log_sendLogLevel", 509, 4, [.u8], [.byte 0 0 0, .size 1]⟩]

/-- src/events/vscp_evt_measurement.c: all send functions -/
def measurement : List Fn := [
  /- src/events/vscp_evt_measurement.c:80-89 `vscp_evt_measurement_sendGeneralEvent` -/
  ⟨"measurement_sendGeneralEvent", 10, 0, [], []⟩,
  /- src/events/vscp_evt_measurement.c:101-113 `vscp_evt_measurement_sendCount` -/
  ⟨"measurement_sendCount", 10, 1, [.u8, .u8, .i32, .i8], [.size 1, .format 0 1 0, .norm 1 2 3]⟩,
  /- src/events/vscp_evt_measurement.c:125-137 `vscp_evt_measurement_sendLengthDistance` -/
  ⟨"measurement_sendLengthDistance", 10, 2, [.u8, .u8, .i32, .i8], [.size 1, .format 0 1 0, .norm 1 2 3]⟩,
  /- src/events/vscp_evt_measurement.c:149-161 `vscp_evt_measurement_sendMass` -/
  ⟨"measurement_sendMass", 10, 3, [.u8, .u8, .i32, .i8], [.size 1, .format 0 1 0, .norm 1 2 3]⟩,
  /- src/events/vscp_evt_measurement.c:173-185 `vscp_evt_measurement_sendTime` -/
  ⟨"measurement_sendTime", 10, 4, [.u8, .u8, .i32, .i8], [.size 1, .format 0 1 0, .norm 1 2 3]⟩,
  /- src/events/vscp_evt_measurement.c:197-209 `vscp_evt_measurement_sendElectricCurrent` -/
  ⟨"measurement_sendElectricCurrent", 10, 5, [.u8, .u8, .i32, .i8], [.size 1, .format 0 1 0, .norm 1 2 3]⟩,
  /- src/events/vscp_evt_measurement.c:221-233 `vscp_evt_measurement_sendTemperature` -/
  ⟨"measurement_sendTemperature", 10, 6, [.u8, .u8, .i32, .i8], [.size 1, .format 0 1 0, .norm 1 2 3]⟩,
  /- src/events/vscp_evt_measurement.c:245-257 `vscp_evt_measurement_sendAmountOfSubstance` -/
  ⟨"measurement_sendAmountOfSubstance", 10, 7, [.u8, .u8, .i32, .i8], [.size 1, .format 0 1 0, .norm 1 2 3]⟩,
  /- src/events/vscp_evt_measurement.c:269-281 `vscp_evt_measurement_sendLuminousIntensityIntensityOfLight` -/
  ⟨"measurement_sendLuminousIntensityIntensityOfLight", 10, 8, [.u8, .u8, .i32, .i8], [.size 1, .format 0 1 0, .norm 1 2 3]⟩,
  /- src/events/vscp_evt_measurement.c:293-305 `vscp_evt_measurement_sendFrequency` -/
  ⟨"measurement_sendFrequency", 10, 9, [.u8, .u8, .i32, .i8], [.size 1, .format 0 1 0, .norm 1 2 3]⟩,
  /- src/events/vscp_evt_measurement.c:317-329 `vscp_evt_measurement_sendRadioactivityAndOtherRandomEvents` -/
  ⟨"measurement_sendRadioactivityAndOtherRandomEvents", 10, 10, [.u8, .u8, .i32, .i8], [.size 1, .format 0 1 0, .norm 1 2 3]⟩,
  /- src/events/vscp_evt_measurement.c:341-353 `vscp_evt_measurement_sendForce` -/
  ⟨"measurement_sendForce", 10, 11, [.u8, .u8, .i32, .i8], [.size 1, .format 0 1 0, .norm 1 2 3]⟩,
  /- src/events/vscp_evt_measurement.c:365-377 `vscp_evt_measurement_sendPressure` -/
  ⟨"measurement_sendPressure", 10, 12, [.u8, .u8, .i32, .i8], [.size 1, .format 0 1 0, .norm 1 2 3]⟩,
  /- src/events/vscp_evt_measurement.c:389-401 `vscp_evt_measurement_sendEnergy` -/
  ⟨"measurement_sendEnergy", 10, 13, [.u8, .u8, .i32, .i8], [.size 1, .format 0 1 0, .norm 1 2 3]⟩,
  /- src/events/vscp_evt_measurement.c:413-425 `vscp_evt_measurement_sendPower` -/
  ⟨"measurement_sendPower", 10, 14, [.u8, .u8, .i32, .i8], [.size 1, .format 0 1 0, .norm 1 2 3]⟩,
  /- src/events/vscp_evt_measurement.c:437-449 `vscp_evt_measurement_sendElectricalCharge` -/
  ⟨"measurement_sendElectricalCharge", 10, 15, [.u8, .u8, .i32, .i8], [.size 1, .format 0 1 0, .norm 1 2 3]⟩,
  /- src/events/vscp_evt_measurement.c:461-473 `vscp_evt_measurement_sendElectricalPotentialVoltage` -/
  ⟨"measurement_sendElectricalPotentialVoltage", 10, 16, [.u8, .u8, .i32, .i8], [.size 1, .format 0 1 0, .norm 1 2 3]⟩,
  /- src/events/vscp_evt_measurement.c:485-497 `vscp_evt_measurement_sendElectricalCapacitance` -/
  ⟨"measurement_sendElectricalCapacitance", 10, 17, [.u8, .u8, .i32, .i8], [.size 1, .format 0 1 0, .norm 1 2 3]⟩,
  /- src/events/vscp_evt_measurement.c:509-521 `vscp_evt_measurement_sendElectricalResistance` -/
  ⟨"measurement_sendElectricalResistance", 10, 18, [.u8, .u8, .i32, .i8], [.size 1, .format 0 1 0, .norm 1 2 3]⟩,
  /- src/events/vscp_evt_measurement.c:533-545 `vscp_evt_measurement_sendElectricalConductance` -/
  ⟨"measurement_sendElectricalConductance", 10, 19, [.u8, .u8, .i32, .i8], [.size 1, .format 0 1 0, .norm 1 2 3]⟩,
  /- src/events/vscp_evt_measurement.c:557-569 `vscp_evt_measurement_sendMagneticFieldStrength` -/
  ⟨"measurement_sendMagneticFieldStrength", 10, 20, [.u8, .u8, .i32, .i8], [.size 1, .format 0 1 0, .norm 1 2 3]⟩,
  /- src/events/vscp_evt_measurement.c:581-593 `vscp_evt_measurement_sendMagneticFlux` -/
  ⟨"measurement_sendMagneticFlux", 10, 21, [.u8, .u8, .i32, .i8], [.size 1, .format 0 1 0, .norm 1 2 3]⟩,
  /- src/events/vscp_evt_measurement.c:605-617 `vscp_evt_measurement_sendMagneticFluxDensity` -/
  ⟨"measurement_sendMagneticFluxDensity", 10, 22, [.u8, .u8, .i32, .i8], [.size 1, .format 0 1 0, .norm 1 2 3]⟩,
  /- src/events/vscp_evt_measurement.c:629-641 `vscp_evt_measurement_sendInductance` -/
  ⟨"measurement_sendInductance", 10, 23, [.u8, .u8, .i32, .i8], [.size 1, .format 0 1 0, .norm 1 2 3]⟩,
  /- src/events/vscp_evt_measurement.c:653-665 `vscp_evt_measurement_sendLuminousFlux` -/
  ⟨"measurement_sendLuminousFlux", 10, 24, [.u8, .u8, .i32, .i8], [.size 1, .format 0 1 0, .norm 1 2 3]⟩,
  /- src/events/vscp_evt_measurement.c:677-689 `vscp_evt_measurement_sendIlluminance` -/
  ⟨"measurement_sendIlluminance", 10, 25, [.u8, .u8, .i32, .i8], [.size 1, .format 0 1 0, .norm 1 2 3]⟩,
  /- src/events/vscp_evt_measurement.c:701-713 `vscp_evt_measurement_sendRadiationDose` -/
  ⟨"measurement_sendRadiationDose", 10, 26, [.u8, .u8, .i32, .i8], [.size 1, .format 0 1 0, .norm 1 2 3]⟩,
  /- src/events/vscp_evt_measurement.c:725-737 `vscp_evt_measurement_sendCatalyticActivity` -/
  ⟨"measurement_sendCatalyticActivity", 10, 27, [.u8, .u8, .i32, .i8], [.size 1, .format 0 1 0, .norm 1 2 3]⟩,
  /- src/events/vscp_evt_measurement.c:749-761 `vscp_evt_measurement_sendVolume` -/
  ⟨"measurement_sendVolume", 10, 28, [.u8, .u8, .i32, .i8], [.size 1, .format 0 1 0, .norm 1 2 3]⟩,
  /- src/events/vscp_evt_measurement.c:773-785 `vscp_evt_measurement_sendSoundIntensity` -/
  ⟨"measurement_sendSoundIntensity", 10, 29, [.u8, .u8, .i32, .i8], [.size 1, .format 0 1 0, .norm 1 2 3]⟩,
  /- src/events/vscp_evt_measurement.c:797-809 `vscp_evt_measurement_sendAngleDirectionOrSimilar` -/
  ⟨"measurement_sendAngleDirectionOrSimilar", 10, 30, [.u8, .u8, .i32, .i8], [.size 1, .format 0 1 0, .norm 1 2 3]⟩,
  /- src/events/vscp_evt_measurement.c:821-833 `vscp_evt_measurement_sendPositionWgs84` -/
  ⟨"measurement_sendPositionWgs84", 10, 31, [.u8, .u8, .i32, .i8], [.size 1, .format 0 1 0, .norm 1 2 3]⟩,
  /- src/events/vscp_evt_measurement.c:845-857 `vscp_evt_measurement_sendSpeed` -/
  ⟨"measurement_sendSpeed", 10, 32, [.u8, .u8, .i32, .i8], [.size 1, .format 0 1 0, .norm 1 2 3]⟩,
  /- src/events/vscp_evt_measurement.c:869-881 `vscp_evt_measurement_sendAcceleration` -/
  ⟨"measurement_sendAcceleration", 10, 33, [.u8, .u8, .i32, .i8], [.size 1, .format 0 1 0, .norm 1 2 3]⟩,
  /- src/events/vscp_evt_measurement.c:893-905 `vscp_evt_measurement_sendTension` -/
  ⟨"measurement_sendTension", 10, 34, [.u8, .u8, .i32, .i8], [.size 1, .format 0 1 0, .norm 1 2 3]⟩,
  /- src/events/vscp_evt_measurement.c:917-929 `vscp_evt_measurement_sendDampMoistHygrometerReading` -/
  ⟨"measurement_sendDampMoistHygrometerReading", 10, 35, [.u8, .u8, .i32, .i8], [.size 1, .format 0 1 0, .norm 1 2 3]⟩,
  /- src/events/vscp_evt_measurement.c:941-953 `vscp_evt_measurement_sendFlow` -/
  ⟨"measurement_sendFlow", 10, 36, [.u8, .u8, .i32, .i8], [.size 1, .format 0 1 0, .norm 1 2 3]⟩,
  /- src/events/vscp_evt_measurement.c:965-977 `vscp_evt_measurement_sendThermalResistance` -/
  ⟨"measurement_sendThermalResistance", 10, 37, [.u8, .u8, .i32, .i8], [.size 1, .format 0 1 0, .norm 1 2 3]⟩,
  /- src/events/vscp_evt_measurement.c:989-1001 `vscp_evt_measurement_sendRefractiveOpticalPower` -/
  ⟨"measurement_sendRefractiveOpticalPower", 10, 38, [.u8, .u8, .i32, .i8], [.size 1, .format 0 1 0, .norm 1 2 3]⟩,
  /- src/events/vscp_evt_measurement.c:1013-1025 `vscp_evt_measurement_sendDynamicViscosity` -/
  ⟨"measurement_sendDynamicViscosity", 10, 39, [.u8, .u8, .i32, .i8], [.size 1, .format 0 1 0, .norm 1 2 3]⟩,
  /- src/events/vscp_evt_measurement.c:1037-1049 `vscp_evt_measurement_sendSoundImpedance` -/
  ⟨"measurement_sendSoundImpedance", 10, 40, [.u8, .u8, .i32, .i8], [.size 1, .format 0 1 0, .norm 1 2 3]⟩,
  /- src/events/vscp_evt_measurement.c:1061-1073 `vscp_evt_measurement_sendSoundResistance` -/
  ⟨"measurement_sendSoundResistance", 10, 41, [.u8, .u8, .i32, .i8], [.size 1, .format 0 1 0, .norm 1 2 3]⟩,
  /- src/events/vscp_evt_measurement.c:1085-1097 `vscp_evt_measurement_sendElectricElastance` -/
  ⟨"measurement_sendElectricElastance", 10, 42, [.u8, .u8, .i32, .i8], [.size 1, .format 0 1 0, .norm 1 2 3]⟩,
  /- src/events/vscp_evt_measurement.c:1109-1121 `vscp_evt_measurement_sendLuminousEnergy` -/
  ⟨"measurement_sendLuminousEnergy", 10, 43, [.u8, .u8, .i32, .i8], [.size 1, .format 0 1 0, .norm 1 2 3]⟩,
  /- src/events/vscp_evt_measurement.c:1133-1145 `vscp_evt_measurement_sendLuminance` -/
  ⟨"measurement_sendLuminance", 10, 44, [.u8, .u8, .i32, .i8], [.size 1, .format 0 1 0, .norm 1 2 3]⟩,
  /- src/events/vscp_evt_measurement.c:1157-1169 `vscp_evt_measurement_sendChemicalConcentration` -/
  ⟨"measurement_sendChemicalConcentration", 10, 45, [.u8, .u8, .i32, .i8], [.size 1, .format 0 1 0, .norm 1 2 3]⟩,
  /- src/events/vscp_evt_measurement.c:1183-1195 `vscp_evt_measurement_sendDoseEquivalent` -/
  ⟨"measurement_sendDoseEquivalent", 10, 47, [.u8, .u8, .i32, .i8], [.size 1, .format 0 1 0, .norm 1 2 3]⟩,
  /- src/events/vscp_evt_measurement.c:1209-1221 `vscp_evt_measurement_sendDewPoint` -/
  ⟨"measurement_sendDewPoint", 10, 49, [.u8, .u8, .i32, .i8], [.size 1, .format 0 1 0, .norm 1 2 3]⟩,
  /- src/events/vscp_evt_measurement.c:1233-1245 `vscp_evt_measurement_sendRelativeLevel` -/
  ⟨"measurement_sendRelativeLevel", 10, 50, [.u8, .u8, .i32, .i8], [.size 1, .format 0 1 0, .norm 1 2 3]⟩,
  /- src/events/vscp_evt_measurement.c:1257-1269 `vscp_evt_measurement_sendAltitude` -/
  ⟨"measurement_sendAltitude", 10, 51, [.u8, .u8, .i32, .i8], [.size 1, .format 0 1 0, .norm 1 2 3]⟩,
  /- src/events/vscp_evt_measurement.c:1281-1293 `vscp_evt_measurement_sendArea` -/
  ⟨"measurement_sendArea", 10, 52, [.u8, .u8, .i32, .i8], [.size 1, .format 0 1 0, .norm 1 2 3]⟩,
  /- src/events/vscp_evt_measurement.c:1305-1317 `vscp_evt_measurement_sendRadiantIntensity` -/
  ⟨"measurement_sendRadiantIntensity", 10, 53, [.u8, .u8, .i32, .i8], [.size 1, .format 0 1 0, .norm 1 2 3]⟩,
  /- src/events/vscp_evt_measurement.c:1329-1341 `vscp_evt_measurement_sendRadiance` -/
  ⟨"measurement_sendRadiance", 10, 54, [.u8, .u8, .i32, .i8], [.size 1, .format 0 1 0, .norm 1 2 3]⟩,
  /- src/events/vscp_evt_measurement.c:1353-1365 `vscp_evt_measurement_sendIrradianceExitanceRadiosity` -/
  ⟨"measurement_sendIrradianceExitanceRadiosity", 10, 55, [.u8, .u8, .i32, .i8], [.size 1, .format 0 1 0, .norm 1 2 3]⟩,
  /- src/events/vscp_evt_measurement.c:1377-1389 `vscp_evt_measurement_sendSpectralRadiance` -/
  ⟨"measurement_sendSpectralRadiance", 10, 56, [.u8, .u8, .i32, .i8], [.size 1, .format 0 1 0, .norm 1 2 3]⟩,
  /- src/events/vscp_evt_measurement.c:1401-1413 `vscp_evt_measurement_sendSpectralIrradiance` -/
  ⟨"measurement_sendSpectralIrradiance", 10, 57, [.u8, .u8, .i32, .i8], [.size 1, .format 0 1 0, .norm 1 2 3]⟩,
  /- src/events/vscp_evt_measurement.c:1425-1437 `vscp_evt_measurement_sendSoundPressureAcousticPressure` -/
  ⟨"measurement_sendSoundPressureAcousticPressure", 10, 58, [.u8, .u8, .i32, .i8], [.size 1, .format 0 1 0, .norm 1 2 3]⟩,
  /- src/events/vscp_evt_measurement.c:1449-1461 `vscp_evt_measurement_sendSoundEnergyDensity` -/
  ⟨"measurement_sendSoundEnergyDensity", 10, 59, [.u8, .u8, .i32, .i8], [.size 1, .format 0 1 0, .norm 1 2 3]⟩,
  /- src/events/vscp_evt_measurement.c:1473-1485 `vscp_evt_measurement_sendSoundLevel` -/
  ⟨"measurement_sendSoundLevel", 10, 60, [.u8, .u8, .i32, .i8], [.size 1, .format 0 1 0, .norm 1 2 3]⟩,
  /- src/events/vscp_evt_measurement.c:1497-1509 `vscp_evt_measurement_sendRadiationDoseEquivalent` -/
  ⟨"measurement_sendRadiationDoseEquivalent", 10, 61, [.u8, .u8, .i32, .i8], [.size 1, .format 0 1 0, .norm 1 2 3]⟩,
  /- src/events/vscp_evt_measurement.c:1521-1533 `vscp_evt_measurement_sendRadiationDoseExposure` -/
  ⟨"measurement_sendRadiationDoseExposure", 10, 62, [.u8, .u8, .i32, .i8], [.size 1, .format 0 1 0, .norm 1 2 3]⟩,
  /- src/events/vscp_evt_measurement.c:1545-1557 `vscp_evt_measurement_sendPowerFactor` -/
  ⟨"measurement_sendPowerFactor", 10, 63, [.u8, .u8, .i32, .i8], [.size 1, .format 0 1 0, .norm 1 2 3]⟩,
  /- src/events/vscp_evt_measurement.c:1569-1581 `vscp_evt_measurement_sendReactivePower` -/
  ⟨"measurement_sendReactivePower", 10, 64, [.u8, .u8, .i32, .i8], [.size 1, .format 0 1 0, .norm 1 2 3]⟩,
  /- src/events/vscp_evt_measurement.c:1593-1605 `vscp_evt_measurement_sendReactiveEnergy` -/
  ⟨"measurement_sendReactiveEnergy", 10, 65, [.u8, .u8, .i32, .i8], [.size 1, .format 0 1 0, .norm 1 2 3]⟩]

/-- src/events/vscp_evt_measurement32.c: all send functions -/
def measurement32 : List Fn := [
  /- src/events/vscp_evt_measurement32.c:79-88 `vscp_evt_measurement32_sendGeneralEvent` -/
  ⟨"measurement32_sendGeneralEvent", 70, 0, [], []⟩,
  /- src/events/vscp_evt_measurement32.c:97-113 `vscp_evt_measurement32_sendCount` -/
  ⟨"measurement32_sendCount", 70, 1, [.f32], [.mem 0 0 3 false, .mem 1 0 2 false, .mem 2 0 1 false, .mem 3 0 0 false, .size 4]⟩,
  /- src/events/vscp_evt_measurement32.c:122-138 `vscp_evt_measurement32_sendLengthDistance` -/
  ⟨"measurement32_sendLengthDistance", 70, 2, [.f32], [.mem 0 0 3 false, .mem 1 0 2 false, .mem 2 0 1 false, .mem 3 0 0 false, .size 4]⟩,
  /- src/events/vscp_evt_measurement32.c:147-163 `vscp_evt_measurement32_sendMass` -/
  ⟨"measurement32_sendMass", 70, 3, [.f32], [.mem 0 0 3 false, .mem 1 0 2 false, .mem 2 0 1 false, .mem 3 0 0 false, .size 4]⟩,
  /- src/events/vscp_evt_measurement32.c:172-188 `vscp_evt_measurement32_sendTime` -/
  ⟨"measurement32_sendTime", 70, 4, [.f32], [.mem 0 0 3 false, .mem 1 0 2 false, .mem 2 0 1 false, .mem 3 0 0 false, .size 4]⟩,
  /- src/events/vscp_evt_measurement32.c:197-213 `vscp_evt_measurement32_sendElectricCurrent` -/
  ⟨"measurement32_sendElectricCurrent", 70, 5, [.f32], [.mem 0 0 3 false, .mem 1 0 2 false, .mem 2 0 1 false, .mem 3 0 0 false, .size 4]⟩,
  /- src/events/vscp_evt_measurement32.c:222-238 `vscp_evt_measurement32_sendTemperature` -/
  ⟨"measurement32_sendTemperature", 70, 6, [.f32], [.mem 0 0 3 false, .mem 1 0 2 false, .mem 2 0 1 false, .mem 3 0 0 false, .size 4]⟩,
  /- src/events/vscp_evt_measurement32.c:247-263 `vscp_evt_measurement32_sendAmountOfSubstance` -/
  ⟨"measurement32_sendAmountOfSubstance", 70, 7, [.f32], [.mem 0 0 3 false, .mem 1 0 2 false, .mem 2 0 1 false, .mem 3 0 0 false, .size 4]⟩,
  /- src/events/vscp_evt_measurement32.c:272-288 `vscp_evt_measurement32_sendLuminousIntensityIntensityOfLight` -/
  ⟨"measurement32_sendLuminousIntensityIntensityOfLight", 70, 8, [.f32], [.mem 0 0 3 false, .mem 1 0 2 false, .mem 2 0 1 false, .mem 3 0 0 false, .size 4]⟩,
  /- src/events/vscp_evt_measurement32.c:297-313 `vscp_evt_measurement32_sendFrequency` -/
  ⟨"measurement32_sendFrequency", 70, 9, [.f32], [.mem 0 0 3 false, .mem 1 0 2 false, .mem 2 0 1 false, .mem 3 0 0 false, .size 4]⟩,
  /- src/events/vscp_evt_measurement32.c:322-338 `vscp_evt_measurement32_sendRadioactivityAndOtherRandomEvents` -/
  ⟨"measurement32_sendRadioactivityAndOtherRandomEvents", 70, 10, [.f32], [.mem 0 0 3 false, .mem 1 0 2 false, .mem 2 0 1 false, .mem 3 0 0 false, .size 4]⟩,
  /- src/events/vscp_evt_measurement32.c:347-363 `vscp_evt_measurement32_sendForce` -/
  ⟨"measurement32_sendForce", 70, 11, [.f32], [.mem 0 0 3 false, .mem 1 0 2 false, .mem 2 0 1 false, .mem 3 0 0 false, .size 4]⟩,
  /- src/events/vscp_evt_measurement32.c:372-388 `vscp_evt_measurement32_sendPressure` -/
  ⟨"measurement32_sendPressure", 70, 12, [.f32], [.mem 0 0 3 false, .mem 1 0 2 false, .mem 2 0 1 false, .mem 3 0 0 false, .size 4]⟩,
  /- src/events/vscp_evt_measurement32.c:397-413 `vscp_evt_measurement32_sendEnergy` -/
  ⟨"measurement32_sendEnergy", 70, 13, [.f32], [.mem 0 0 3 false, .mem 1 0 2 false, .mem 2 0 1 false, .mem 3 0 0 false, .size 4]⟩,
  /- src/events/vscp_evt_measurement32.c:422-438 `vscp_evt_measurement32_sendPower` -/
  ⟨"measurement32_sendPower", 70, 14, [.f32], [.mem 0 0 3 false, .mem 1 0 2 false, .mem 2 0 1 false, .mem 3 0 0 false, .size 4]⟩,
  /- src/events/vscp_evt_measurement32.c:447-463 `vscp_evt_measurement32_sendElectricalCharge` -/
  ⟨"measurement32_sendElectricalCharge", 70, 15, [.f32], [.mem 0 0 3 false, .mem 1 0 2 false, .mem 2 0 1 false, .mem 3 0 0 false, .size 4]⟩,
  /- src/events/vscp_evt_measurement32.c:472-488 `vscp_evt_measurement32_sendElectricalPotentialVoltage` -/
  ⟨"measurement32_sendElectricalPotentialVoltage", 70, 16, [.f32], [.mem 0 0 3 false, .mem 1 0 2 false, .mem 2 0 1 false, .mem 3 0 0 false, .size 4]⟩,
  /- src/events/vscp_evt_measurement32.c:497-513 `vscp_evt_measurement32_sendElectricalCapacitance` -/
  ⟨"measurement32_sendElectricalCapacitance", 70, 17, [.f32], [.mem 0 0 3 false, .mem 1 0 2 false, .mem 2 0 1 false, .mem 3 0 0 false, .size 4]⟩,
  /- src/events/vscp_evt_measurement32.c:522-538 `vscp_evt_measurement32_sendElectricalResistance` -/
  ⟨"measurement32_sendElectricalResistance", 70, 18, [.f32], [.mem 0 0 3 false, .mem 1 0 2 false, .mem 2 0 1 false, .mem 3 0 0 false, .size 4]⟩,
  /- src/events/vscp_evt_measurement32.c:547-563 `vscp_evt_measurement32_sendElectricalConductance` -/
  ⟨"measurement32_sendElectricalConductance", 70, 19, [.f32], [.mem 0 0 3 false, .mem 1 0 2 false, .mem 2 0 1 false, .mem 3 0 0 false, .size 4]⟩,
  /- src/events/vscp_evt_measurement32.c:572-588 `vscp_evt_measurement32_sendMagneticFieldStrength` -/
  ⟨"measurement32_sendMagneticFieldStrength", 70, 20, [.f32], [.mem 0 0 3 false, .mem 1 0 2 false, .mem 2 0 1 false, .mem 3 0 0 false, .size 4]⟩,
  /- src/events/vscp_evt_measurement32.c:597-613 `vscp_evt_measurement32_sendMagneticFlux` -/
  ⟨"measurement32_sendMagneticFlux", 70, 21, [.f32], [.mem 0 0 3 false, .mem 1 0 2 false, .mem 2 0 1 false, .mem 3 0 0 false, .size 4]⟩,
  /- src/events/vscp_evt_measurement32.c:622-638 `vscp_evt_measurement32_sendMagneticFluxDensity` -/
  ⟨"measurement32_sendMagneticFluxDensity", 70, 22, [.f32], [.mem 0 0 3 false, .mem 1 0 2 false, .mem 2 0 1 false, .mem 3 0 0 false, .size 4]⟩,
  /- src/events/vscp_evt_measurement32.c:647-663 `vscp_evt_measurement32_sendInductance` -/
  ⟨"measurement32_sendInductance", 70, 23, [.f32], [.mem 0 0 3 false, .mem 1 0 2 false, .mem 2 0 1 false, .mem 3 0 0 false, .size 4]⟩,
  /- src/events/vscp_evt_measurement32.c:672-688 `vscp_evt_measurement32_sendLuminousFlux` -/
  ⟨"measurement32_sendLuminousFlux", 70, 24, [.f32], [.mem 0 0 3 false, .mem 1 0 2 false, .mem 2 0 1 false, .mem 3 0 0 false, .size 4]⟩,
  /- src/events/vscp_evt_measurement32.c:697-713 `vscp_evt_measurement32_sendIlluminance` -/
  ⟨"measurement32_sendIlluminance", 70, 25, [.f32], [.mem 0 0 3 false, .mem 1 0 2 false, .mem 2 0 1 false, .mem 3 0 0 false, .size 4]⟩,
  /- src/events/vscp_evt_measurement32.c:722-738 `vscp_evt_measurement32_sendRadiationDose` -/
  ⟨"measurement32_sendRadiationDose", 70, 26, [.f32], [.mem 0 0 3 false, .mem 1 0 2 false, .mem 2 0 1 false, .mem 3 0 0 false, .size 4]⟩,
  /- src/events/vscp_evt_measurement32.c:747-763 `vscp_evt_measurement32_sendCatalyticActivity` -/
  ⟨"measurement32_sendCatalyticActivity", 70, 27, [.f32], [.mem 0 0 3 false, .mem 1 0 2 false, .mem 2 0 1 false, .mem 3 0 0 false, .size 4]⟩,
  /- src/events/vscp_evt_measurement32.c:772-788 `vscp_evt_measurement32_sendVolume` -/
  ⟨"measurement32_sendVolume", 70, 28, [.f32], [.mem 0 0 3 false, .mem 1 0 2 false, .mem 2 0 1 false, .mem 3 0 0 false, .size 4]⟩,
  /- src/events/vscp_evt_measurement32.c:797-813 `vscp_evt_measurement32_sendSoundIntensity` -/
  ⟨"measurement32_sendSoundIntensity", 70, 29, [.f32], [.mem 0 0 3 false, .mem 1 0 2 false, .mem 2 0 1 false, .mem 3 0 0 false, .size 4]⟩,
  /- src/events/vscp_evt_measurement32.c:822-838 `vscp_evt_measurement32_sendAngle` -/
  ⟨"measurement32_sendAngle", 70, 30, [.f32], [.mem 0 0 3 false, .mem 1 0 2 false, .mem 2 0 1 false, .mem 3 0 0 false, .size 4]⟩,
  /- src/events/vscp_evt_measurement32.c:847-863 `vscp_evt_measurement32_sendPositionWgs84` -/
  ⟨"measurement32_sendPositionWgs84", 70, 31, [.f32], [.mem 0 0 3 false, .mem 1 0 2 false, .mem 2 0 1 false, .mem 3 0 0 false, .size 4]⟩,
  /- src/events/vscp_evt_measurement32.c:872-888 `vscp_evt_measurement32_sendSpeed` -/
  ⟨"measurement32_sendSpeed", 70, 32, [.f32], [.mem 0 0 3 false, .mem 1 0 2 false, .mem 2 0 1 false, .mem 3 0 0 false, .size 4]⟩,
  /- src/events/vscp_evt_measurement32.c:897-913 `vscp_evt_measurement32_sendAcceleration` -/
  ⟨"measurement32_sendAcceleration", 70, 33, [.f32], [.mem 0 0 3 false, .mem 1 0 2 false, .mem 2 0 1 false, .mem 3 0 0 false, .size 4]⟩,
  /- src/events/vscp_evt_measurement32.c:922-938 `vscp_evt_measurement32_sendTension` -/
  ⟨"measurement32_sendTension", 70, 34, [.f32], [.mem 0 0 3 false, .mem 1 0 2 false, .mem 2 0 1 false, .mem 3 0 0 false, .size 4]⟩,
  /- src/events/vscp_evt_measurement32.c:947-963 `vscp_evt_measurement32_sendDampMoistHygrometerReading` -/
  ⟨"measurement32_sendDampMoistHygrometerReading", 70, 35, [.f32], [.mem 0 0 3 false, .mem 1 0 2 false, .mem 2 0 1 false, .mem 3 0 0 false, .size 4]⟩,
  /- src/events/vscp_evt_measurement32.c:972-988 `vscp_evt_measurement32_sendFlow` -/
  ⟨"measurement32_sendFlow", 70, 36, [.f32], [.mem 0 0 3 false, .mem 1 0 2 false, .mem 2 0 1 false, .mem 3 0 0 false, .size 4]⟩,
  /- src/events/vscp_evt_measurement32.c:997-1013 `vscp_evt_measurement32_sendThermalResistance` -/
  ⟨"measurement32_sendThermalResistance", 70, 37, [.f32], [.mem 0 0 3 false, .mem 1 0 2 false, .mem 2 0 1 false, .mem 3 0 0 false, .size 4]⟩,
  /- src/events/vscp_evt_measurement32.c:1022-1038 `vscp_evt_measurement32_sendRefractiveOpticalPower` -/
  ⟨"measurement32_sendRefractiveOpticalPower", 70, 38, [.f32], [.mem 0 0 3 false, .mem 1 0 2 false, .mem 2 0 1 false, .mem 3 0 0 false, .size 4]⟩,
  /- src/events/vscp_evt_measurement32.c:1047-1063 `vscp_evt_measurement32_sendDynamicViscosity` -/
  ⟨"measurement32_sendDynamicViscosity", 70, 39, [.f32], [.mem 0 0 3 false, .mem 1 0 2 false, .mem 2 0 1 false, .mem 3 0 0 false, .size 4]⟩,
  /- src/events/vscp_evt_measurement32.c:1072-1088 `vscp_evt_measurement32_sendSoundImpedance` -/
  ⟨"measurement32_sendSoundImpedance", 70, 40, [.f32], [.mem 0 0 3 false, .mem 1 0 2 false, .mem 2 0 1 false, .mem 3 0 0 false, .size 4]⟩,
  /- src/events/vscp_evt_measurement32.c:1097-1113 `vscp_evt_measurement32_sendSoundResistance` -/
  ⟨"measurement32_sendSoundResistance", 70, 41, [.f32], [.mem 0 0 3 false, .mem 1 0 2 false, .mem 2 0 1 false, .mem 3 0 0 false, .size 4]⟩,
  /- src/events/vscp_evt_measurement32.c:1122-1138 `vscp_evt_measurement32_sendElectricElastance` -/
  ⟨"measurement32_sendElectricElastance", 70, 42, [.f32], [.mem 0 0 3 false, .mem 1 0 2 false, .mem 2 0 1 false, .mem 3 0 0 false, .size 4]⟩,
  /- src/events/vscp_evt_measurement32.c:1147-1163 `vscp_evt_measurement32_sendLuminousEnergy` -/
  ⟨"measurement32_sendLuminousEnergy", 70, 43, [.f32], [.mem 0 0 3 false, .mem 1 0 2 false, .mem 2 0 1 false, .mem 3 0 0 false, .size 4]⟩,
  /- src/events/vscp_evt_measurement32.c:1172-1188 `vscp_evt_measurement32_sendLuminance` -/
  ⟨"measurement32_sendLuminance", 70, 44, [.f32], [.mem 0 0 3 false, .mem 1 0 2 false, .mem 2 0 1 false, .mem 3 0 0 false, .size 4]⟩,
  /- src/events/vscp_evt_measurement32.c:1197-1213 `vscp_evt_measurement32_sendChemicalConcentration` -/
  ⟨"measurement32_sendChemicalConcentration", 70, 45, [.f32], [.mem 0 0 3 false, .mem 1 0 2 false, .mem 2 0 1 false, .mem 3 0 0 false, .size 4]⟩,
  /- src/events/vscp_evt_measurement32.c:1224-1240 `vscp_evt_measurement32_sendDoseEquivalent` -/
  ⟨"measurement32_sendDoseEquivalent", 70, 47, [.f32], [.mem 0 0 3 false, .mem 1 0 2 false, .mem 2 0 1 false, .mem 3 0 0 false, .size 4]⟩,
  /- src/events/vscp_evt_measurement32.c:1251-1267 `vscp_evt_measurement32_sendDewPoint` -/
  ⟨"measurement32_sendDewPoint", 70, 49, [.f32], [.mem 0 0 3 false, .mem 1 0 2 false, .mem 2 0 1 false, .mem 3 0 0 false, .size 4]⟩,
  /- src/events/vscp_evt_measurement32.c:1276-1292 `vscp_evt_measurement32_sendRelativeLevel` -/
  ⟨"measurement32_sendRelativeLevel", 70, 50, [.f32], [.mem 0 0 3 false, .mem 1 0 2 false, .mem 2 0 1 false, .mem 3 0 0 false, .size 4]⟩,
  /- src/events/vscp_evt_measurement32.c:1301-1317 `vscp_evt_measurement32_sendAltitude` -/
  ⟨"measurement32_sendAltitude", 70, 51, [.f32], [.mem 0 0 3 false, .mem 1 0 2 false, .mem 2 0 1 false, .mem 3 0 0 false, .size 4]⟩,
  /- src/events/vscp_evt_measurement32.c:1326-1342 `vscp_evt_measurement32_sendArea` -/
  ⟨"measurement32_sendArea", 70, 52, [.f32], [.mem 0 0 3 false, .mem 1 0 2 false, .mem 2 0 1 false, .mem 3 0 0 false, .size 4]⟩,
  /- src/events/vscp_evt_measurement32.c:1351-1367 `vscp_evt_measurement32_sendRadiantIntensity` -/
  ⟨"measurement32_sendRadiantIntensity", 70, 53, [.f32], [.mem 0 0 3 false, .mem 1 0 2 false, .mem 2 0 1 false, .mem 3 0 0 false, .size 4]⟩,
  /- src/events/vscp_evt_measurement32.c:1376-1392 `vscp_evt_measurement32_sendRadiance` -/
  ⟨"measurement32_sendRadiance", 70, 54, [.f32], [.mem 0 0 3 false, .mem 1 0 2 false, .mem 2 0 1 false, .mem 3 0 0 false, .size 4]⟩,
  /- src/events/vscp_evt_measurement32.c:1401-1417 `vscp_evt_measurement32_sendIrradianceExitanceRadiosity` -/
  ⟨"measurement32_sendIrradianceExitanceRadiosity", 70, 55, [.f32], [.mem 0 0 3 false, .mem 1 0 2 false, .mem 2 0 1 false, .mem 3 0 0 false, .size 4]⟩,
  /- src/events/vscp_evt_measurement32.c:1426-1442 `vscp_evt_measurement32_sendSpectralRadiance` -/
  ⟨"measurement32_sendSpectralRadiance", 70, 56, [.f32], [.mem 0 0 3 false, .mem 1 0 2 false, .mem 2 0 1 false, .mem 3 0 0 false, .size 4]⟩,
  /- src/events/vscp_evt_measurement32.c:1451-1467 `vscp_evt_measurement32_sendSpectralIrradiance` -/
  ⟨"measurement32_sendSpectralIrradiance", 70, 57, [.f32], [.mem 0 0 3 false, .mem 1 0 2 false, .mem 2 0 1 false, .mem 3 0 0 false, .size 4]⟩,
  /- src/events/vscp_evt_measurement32.c:1476-1492 `vscp_evt_measurement32_sendSoundPressureAcousticPressure` -/
  ⟨"measurement32_sendSoundPressureAcousticPressure", 70, 58, [.f32], [.mem 0 0 3 false, .mem 1 0 2 false, .mem 2 0 1 false, .mem 3 0 0 false, .size 4]⟩,
  /- src/events/vscp_evt_measurement32.c:1501-1517 `vscp_evt_measurement32_sendSoundEnergyDensity` -/
  ⟨"measurement32_sendSoundEnergyDensity", 70, 59, [.f32], [.mem 0 0 3 false, .mem 1 0 2 false, .mem 2 0 1 false, .mem 3 0 0 false, .size 4]⟩,
  /- src/events/vscp_evt_measurement32.c:1526-1542 `vscp_evt_measurement32_sendSoundLevel` -/
  ⟨"measurement32_sendSoundLevel", 70, 60, [.f32], [.mem 0 0 3 false, .mem 1 0 2 false, .mem 2 0 1 false, .mem 3 0 0 false, .size 4]⟩,
  /- src/events/vscp_evt_measurement32.c:1551-1567 `vscp_evt_measurement32_sendRadiationDoseEquivalent` -/
  ⟨"measurement32_sendRadiationDoseEquivalent", 70, 61, [.f32], [.mem 0 0 3 false, .mem 1 0 2 false, .mem 2 0 1 false, .mem 3 0 0 false, .size 4]⟩,
  /- src/events/vscp_evt_measurement32.c:1576-1592 `vscp_evt_measurement32_sendRadiationDoseExposure` -/
  ⟨"measurement32_sendRadiationDoseExposure", 70, 62, [.f32], [.mem 0 0 3 false, .mem 1 0 2 false, .mem 2 0 1 false, .mem 3 0 0 false, .size 4]⟩,
  /- src/events/vscp_evt_measurement32.c:1601-1617 `vscp_evt_measurement32_sendPowerFactor` -/
  ⟨"measurement32_sendPowerFactor", 70, 63, [.f32], [.mem 0 0 3 false, .mem 1 0 2 false, .mem 2 0 1 false, .mem 3 0 0 false, .size 4]⟩,
  /- src/events/vscp_evt_measurement32.c:1626-1642 `vscp_evt_measurement32_sendReactivePower` -/
  ⟨"measurement32_sendReactivePower", 70, 64, [.f32], [.mem 0 0 3 false, .mem 1 0 2 false, .mem 2 0 1 false, .mem 3 0 0 false, .size 4]⟩,
  /- src/events/vscp_evt_measurement32.c:1651-1667 `vscp_evt_measurement32_sendReactiveEnergy` -/
  ⟨"measurement32_sendReactiveEnergy", 70, 65, [.f32], [.mem 0 0 3 false, .mem 1 0 2 false, .mem 2 0 1 false, .mem 3 0 0 false, .size 4]⟩]

/-- src/events/vscp_evt_measurement64.c: all send functions -/
def measurement64 : List Fn := [
  /- src/events/vscp_evt_measurement64.c:79-88 `vscp_evt_measurement64_sendGeneralEvent` -/
  ⟨"measurement64_sendGeneralEvent", 60, 0, [], []⟩,
  /- src/events/vscp_evt_measurement64.c:97-117 `vscp_evt_measurement64_sendCount` -/
  ⟨"measurement64_sendCount", 60, 1, [.f64], [.mem 0 0 7 true, .mem 1 0 6 true, .mem 2 0 5 true, .mem 3 0 4 true, .mem 4 0 3 true, .mem 5 0 2 true, .mem 6 0 1 true, .mem 7 0 0 true, .size 8]⟩,
  /- src/events/vscp_evt_measurement64.c:126-146 `vscp_evt_measurement64_sendLengthDistance` -/
  ⟨"measurement64_sendLengthDistance", 60, 2, [.f64], [.mem 0 0 7 true, .mem 1 0 6 true, .mem 2 0 5 true, .mem 3 0 4 true, .mem 4 0 3 true, .mem 5 0 2 true, .mem 6 0 1 true, .mem 7 0 0 true, .size 8]⟩,
  /- src/events/vscp_evt_measurement64.c:155-175 `vscp_evt_measurement64_sendMass` -/
  ⟨"measurement64_sendMass", 60, 3, [.f64], [.mem 0 0 7 true, .mem 1 0 6 true, .mem 2 0 5 true, .mem 3 0 4 true, .mem 4 0 3 true, .mem 5 0 2 true, .mem 6 0 1 true, .mem 7 0 0 true, .size 8]⟩,
  /- src/events/vscp_evt_measurement64.c:184-204 `vscp_evt_measurement64_sendTime` -/
  ⟨"measurement64_sendTime", 60, 4, [.f64], [.mem 0 0 7 true, .mem 1 0 6 true, .mem 2 0 5 true, .mem 3 0 4 true, .mem 4 0 3 true, .mem 5 0 2 true, .mem 6 0 1 true, .mem 7 0 0 true, .size 8]⟩,
  /- src/events/vscp_evt_measurement64.c:213-233 `vscp_evt_measurement64_sendElectricCurrent` -/
  ⟨"measurement64_sendElectricCurrent", 60, 5, [.f64], [.mem 0 0 7 true, .mem 1 0 6 true, .mem 2 0 5 true, .mem 3 0 4 true, .mem 4 0 3 true, .mem 5 0 2 true, .mem 6 0 1 true, .mem 7 0 0 true, .size 8]⟩,
  /- src/events/vscp_evt_measurement64.c:242-262 `vscp_evt_measurement64_sendTemperature` -/
  ⟨"measurement64_sendTemperature", 60, 6, [.f64], [.mem 0 0 7 true, .mem 1 0 6 true, .mem 2 0 5 true, .mem 3 0 4 true, .mem 4 0 3 true, .mem 5 0 2 true, .mem 6 0 1 true, .mem 7 0 0 true, .size 8]⟩,
  /- src/events/vscp_evt_measurement64.c:271-291 `vscp_evt_measurement64_sendAmountOfSubstance` -/
  ⟨"measurement64_sendAmountOfSubstance", 60, 7, [.f64], [.mem 0 0 7 true, .mem 1 0 6 true, .mem 2 0 5 true, .mem 3 0 4 true, .mem 4 0 3 true, .mem 5 0 2 true, .mem 6 0 1 true, .mem 7 0 0 true, .size 8]⟩,
  /- src/events/vscp_evt_measurement64.c:300-320 `vscp_evt_measurement64_sendLuminousIntensityIntensityOfLight` -/
  ⟨"measurement64_sendLuminousIntensityIntensityOfLight", 60, 8, [.f64], [.mem 0 0 7 true, .mem 1 0 6 true, .mem 2 0 5 true, .mem 3 0 4 true, .mem 4 0 3 true, .mem 5 0 2 true, .mem 6 0 1 true, .mem 7 0 0 true, .size 8]⟩,
  /- src/events/vscp_evt_measurement64.c:329-349 `vscp_evt_measurement64_sendFrequency` -/
  ⟨"measurement64_sendFrequency", 60, 9, [.f64], [.mem 0 0 7 true, .mem 1 0 6 true, .mem 2 0 5 true, .mem 3 0 4 true, .mem 4 0 3 true, .mem 5 0 2 true, .mem 6 0 1 true, .mem 7 0 0 true, .size 8]⟩,
  /- src/events/vscp_evt_measurement64.c:358-378 `vscp_evt_measurement64_sendRadioactivityAndOtherRandomEvents` -/
  ⟨"measurement64_sendRadioactivityAndOtherRandomEvents", 60, 10, [.f64], [.mem 0 0 7 true, .mem 1 0 6 true, .mem 2 0 5 true, .mem 3 0 4 true, .mem 4 0 3 true, .mem 5 0 2 true, .mem 6 0 1 true, .mem 7 0 0 true, .size 8]⟩,
  /- src/events/vscp_evt_measurement64.c:387-407 `vscp_evt_measurement64_sendForce` -/
  ⟨"measurement64_sendForce", 60, 11, [.f64], [.mem 0 0 7 true, .mem 1 0 6 true, .mem 2 0 5 true, .mem 3 0 4 true, .mem 4 0 3 true, .mem 5 0 2 true, .mem 6 0 1 true, .mem 7 0 0 true, .size 8]⟩,
  /- src/events/vscp_evt_measurement64.c:416-436 `vscp_evt_measurement64_sendPressure` -/
  ⟨"measurement64_sendPressure", 60, 12, [.f64], [.mem 0 0 7 true, .mem 1 0 6 true, .mem 2 0 5 true, .mem 3 0 4 true, .mem 4 0 3 true, .mem 5 0 2 true, .mem 6 0 1 true, .mem 7 0 0 true, .size 8]⟩,
  /- src/events/vscp_evt_measurement64.c:445-465 `vscp_evt_measurement64_sendEnergy` -/
  ⟨"measurement64_sendEnergy", 60, 13, [.f64], [.mem 0 0 7 true, .mem 1 0 6 true, .mem 2 0 5 true, .mem 3 0 4 true, .mem 4 0 3 true, .mem 5 0 2 true, .mem 6 0 1 true, .mem 7 0 0 true, .size 8]⟩,
  /- src/events/vscp_evt_measurement64.c:474-494 `vscp_evt_measurement64_sendPower` -/
  ⟨"measurement64_sendPower", 60, 14, [.f64], [.mem 0 0 7 true, .mem 1 0 6 true, .mem 2 0 5 true, .mem 3 0 4 true, .mem 4 0 3 true, .mem 5 0 2 true, .mem 6 0 1 true, .mem 7 0 0 true, .size 8]⟩,
  /- src/events/vscp_evt_measurement64.c:503-523 `vscp_evt_measurement64_sendElectricalCharge` -/
  ⟨"measurement64_sendElectricalCharge", 60, 15, [.f64], [.mem 0 0 7 true, .mem 1 0 6 true, .mem 2 0 5 true, .mem 3 0 4 true, .mem 4 0 3 true, .mem 5 0 2 true, .mem 6 0 1 true, .mem 7 0 0 true, .size 8]⟩,
  /- src/events/vscp_evt_measurement64.c:532-552 `vscp_evt_measurement64_sendElectricalPotentialVoltage` -/
  ⟨"measurement64_sendElectricalPotentialVoltage", 60, 16, [.f64], [.mem 0 0 7 true, .mem 1 0 6 true, .mem 2 0 5 true, .mem 3 0 4 true, .mem 4 0 3 true, .mem 5 0 2 true, .mem 6 0 1 true, .mem 7 0 0 true, .size 8]⟩,
  /- src/events/vscp_evt_measurement64.c:561-581 `vscp_evt_measurement64_sendElectricalCapacitance` -/
  ⟨"measurement64_sendElectricalCapacitance", 60, 17, [.f64], [.mem 0 0 7 true, .mem 1 0 6 true, .mem 2 0 5 true, .mem 3 0 4 true, .mem 4 0 3 true, .mem 5 0 2 true, .mem 6 0 1 true, .mem 7 0 0 true, .size 8]⟩,
  /- src/events/vscp_evt_measurement64.c:590-610 `vscp_evt_measurement64_sendElectricalResistance` -/
  ⟨"measurement64_sendElectricalResistance", 60, 18, [.f64], [.mem 0 0 7 true, .mem 1 0 6 true, .mem 2 0 5 true, .mem 3 0 4 true, .mem 4 0 3 true, .mem 5 0 2 true, .mem 6 0 1 true, .mem 7 0 0 true, .size 8]⟩,
  /- src/events/vscp_evt_measurement64.c:619-639 `vscp_evt_measurement64_sendElectricalConductance` -/
  ⟨"measurement64_sendElectricalConductance", 60, 19, [.f64], [.mem 0 0 7 true, .mem 1 0 6 true, .mem 2 0 5 true, .mem 3 0 4 true, .mem 4 0 3 true, .mem 5 0 2 true, .mem 6 0 1 true, .mem 7 0 0 true, .size 8]⟩,
  /- src/events/vscp_evt_measurement64.c:648-668 `vscp_evt_measurement64_sendMagneticFieldStrength` -/
  ⟨"measurement64_sendMagneticFieldStrength", 60, 20, [.f64], [.mem 0 0 7 true, .mem 1 0 6 true, .mem 2 0 5 true, .mem 3 0 4 true, .mem 4 0 3 true, .mem 5 0 2 true, .mem 6 0 1 true, .mem 7 0 0 true, .size 8]⟩,
  /- src/events/vscp_evt_measurement64.c:677-697 `vscp_evt_measurement64_sendMagneticFlux` -/
  ⟨"measurement64_sendMagneticFlux", 60, 21, [.f64], [.mem 0 0 7 true, .mem 1 0 6 true, .mem 2 0 5 true, .mem 3 0 4 true, .mem 4 0 3 true, .mem 5 0 2 true, .mem 6 0 1 true, .mem 7 0 0 true, .size 8]⟩,
  /- src/events/vscp_evt_measurement64.c:706-726 `vscp_evt_measurement64_sendMagneticFluxDensity` -/
  ⟨"measurement64_sendMagneticFluxDensity", 60, 22, [.f64], [.mem 0 0 7 true, .mem 1 0 6 true, .mem 2 0 5 true, .mem 3 0 4 true, .mem 4 0 3 true, .mem 5 0 2 true, .mem 6 0 1 true, .mem 7 0 0 true, .size 8]⟩,
  /- src/events/vscp_evt_measurement64.c:735-755 `vscp_evt_measurement64_sendInductance` -/
  ⟨"measurement64_sendInductance", 60, 23, [.f64], [.mem 0 0 7 true, .mem 1 0 6 true, .mem 2 0 5 true, .mem 3 0 4 true, .mem 4 0 3 true, .mem 5 0 2 true, .mem 6 0 1 true, .mem 7 0 0 true, .size 8]⟩,
  /- src/events/vscp_evt_measurement64.c:764-784 `vscp_evt_measurement64_sendLuminousFlux` -/
  ⟨"measurement64_sendLuminousFlux", 60, 24, [.f64], [.mem 0 0 7 true, .mem 1 0 6 true, .mem 2 0 5 true, .mem 3 0 4 true, .mem 4 0 3 true, .mem 5 0 2 true, .mem 6 0 1 true, .mem 7 0 0 true, .size 8]⟩,
  /- src/events/vscp_evt_measurement64.c:793-813 `vscp_evt_measurement64_sendIlluminance` -/
  ⟨"measurement64_sendIlluminance", 60, 25, [.f64], [.mem 0 0 7 true, .mem 1 0 6 true, .mem 2 0 5 true, .mem 3 0 4 true, .mem 4 0 3 true, .mem 5 0 2 true, .mem 6 0 1 true, .mem 7 0 0 true, .size 8]⟩,
  /- src/events/vscp_evt_measurement64.c:822-842 `vscp_evt_measurement64_sendRadiationDose` -/
  ⟨"measurement64_sendRadiationDose", 60, 26, [.f64], [.mem 0 0 7 true, .mem 1 0 6 true, .mem 2 0 5 true, .mem 3 0 4 true, .mem 4 0 3 true, .mem 5 0 2 true, .mem 6 0 1 true, .mem 7 0 0 true, .size 8]⟩,
  /- src/events/vscp_evt_measurement64.c:851-871 `vscp_evt_measurement64_sendCatalyticActivity` -/
  ⟨"measurement64_sendCatalyticActivity", 60, 27, [.f64], [.mem 0 0 7 true, .mem 1 0 6 true, .mem 2 0 5 true, .mem 3 0 4 true, .mem 4 0 3 true, .mem 5 0 2 true, .mem 6 0 1 true, .mem 7 0 0 true, .size 8]⟩,
  /- src/events/vscp_evt_measurement64.c:880-900 `vscp_evt_measurement64_sendVolume` -/
  ⟨"measurement64_sendVolume", 60, 28, [.f64], [.mem 0 0 7 true, .mem 1 0 6 true, .mem 2 0 5 true, .mem 3 0 4 true, .mem 4 0 3 true, .mem 5 0 2 true, .mem 6 0 1 true, .mem 7 0 0 true, .size 8]⟩,
  /- src/events/vscp_evt_measurement64.c:909-929 `vscp_evt_measurement64_sendSoundIntensity` -/
  ⟨"measurement64_sendSoundIntensity", 60, 29, [.f64], [.mem 0 0 7 true, .mem 1 0 6 true, .mem 2 0 5 true, .mem 3 0 4 true, .mem 4 0 3 true, .mem 5 0 2 true, .mem 6 0 1 true, .mem 7 0 0 true, .size 8]⟩,
  /- src/events/vscp_evt_measurement64.c:938-958 `vscp_evt_measurement64_sendAngle` -/
  ⟨"measurement64_sendAngle", 60, 30, [.f64], [.mem 0 0 7 true, .mem 1 0 6 true, .mem 2 0 5 true, .mem 3 0 4 true, .mem 4 0 3 true, .mem 5 0 2 true, .mem 6 0 1 true, .mem 7 0 0 true, .size 8]⟩,
  /- src/events/vscp_evt_measurement64.c:967-987 `vscp_evt_measurement64_sendPositionWgs84` -/
  ⟨"measurement64_sendPositionWgs84", 60, 31, [.f64], [.mem 0 0 7 true, .mem 1 0 6 true, .mem 2 0 5 true, .mem 3 0 4 true, .mem 4 0 3 true, .mem 5 0 2 true, .mem 6 0 1 true, .mem 7 0 0 true, .size 8]⟩,
  /- src/events/vscp_evt_measurement64.c:996-1016 `vscp_evt_measurement64_sendSpeed` -/
  ⟨"measurement64_sendSpeed", 60, 32, [.f64], [.mem 0 0 7 true, .mem 1 0 6 true, .mem 2 0 5 true, .mem 3 0 4 true, .mem 4 0 3 true, .mem 5 0 2 true, .mem 6 0 1 true, .mem 7 0 0 true, .size 8]⟩,
  /- src/events/vscp_evt_measurement64.c:1025-1045 `vscp_evt_measurement64_sendAcceleration` -/
  ⟨"measurement64_sendAcceleration", 60, 33, [.f64], [.mem 0 0 7 true, .mem 1 0 6 true, .mem 2 0 5 true, .mem 3 0 4 true, .mem 4 0 3 true, .mem 5 0 2 true, .mem 6 0 1 true, .mem 7 0 0 true, .size 8]⟩,
  /- src/events/vscp_evt_measurement64.c:1054-1074 `vscp_evt_measurement64_sendTension` -/
  ⟨"measurement64_sendTension", 60, 34, [.f64], [.mem 0 0 7 true, .mem 1 0 6 true, .mem 2 0 5 true, .mem 3 0 4 true, .mem 4 0 3 true, .mem 5 0 2 true, .mem 6 0 1 true, .mem 7 0 0 true, .size 8]⟩,
  /- src/events/vscp_evt_measurement64.c:1083-1103 `vscp_evt_measurement64_sendDampMoistHygrometerReading` -/
  ⟨"measurement64_sendDampMoistHygrometerReading", 60, 35, [.f64], [.mem 0 0 7 true, .mem 1 0 6 true, .mem 2 0 5 true, .mem 3 0 4 true, .mem 4 0 3 true, .mem 5 0 2 true, .mem 6 0 1 true, .mem 7 0 0 true, .size 8]⟩,
  /- src/events/vscp_evt_measurement64.c:1112-1132 `vscp_evt_measurement64_sendFlow` -/
  ⟨"measurement64_sendFlow", 60, 36, [.f64], [.mem 0 0 7 true, .mem 1 0 6 true, .mem 2 0 5 true, .mem 3 0 4 true, .mem 4 0 3 true, .mem 5 0 2 true, .mem 6 0 1 true, .mem 7 0 0 true, .size 8]⟩,
  /- src/events/vscp_evt_measurement64.c:1141-1161 `vscp_evt_measurement64_sendThermalResistance` -/
  ⟨"measurement64_sendThermalResistance", 60, 37, [.f64], [.mem 0 0 7 true, .mem 1 0 6 true, .mem 2 0 5 true, .mem 3 0 4 true, .mem 4 0 3 true, .mem 5 0 2 true, .mem 6 0 1 true, .mem 7 0 0 true, .size 8]⟩,
  /- src/events/vscp_evt_measurement64.c:1170-1190 `vscp_evt_measurement64_sendRefractiveOpticalPower` -/
  ⟨"measurement64_sendRefractiveOpticalPower", 60, 38, [.f64], [.mem 0 0 7 true, .mem 1 0 6 true, .mem 2 0 5 true, .mem 3 0 4 true, .mem 4 0 3 true, .mem 5 0 2 true, .mem 6 0 1 true, .mem 7 0 0 true, .size 8]⟩,
  /- src/events/vscp_evt_measurement64.c:1199-1219 `vscp_evt_measurement64_sendDynamicViscosity` -/
  ⟨"measurement64_sendDynamicViscosity", 60, 39, [.f64], [.mem 0 0 7 true, .mem 1 0 6 true, .mem 2 0 5 true, .mem 3 0 4 true, .mem 4 0 3 true, .mem 5 0 2 true, .mem 6 0 1 true, .mem 7 0 0 true, .size 8]⟩,
  /- src/events/vscp_evt_measurement64.c:1228-1248 `vscp_evt_measurement64_sendSoundImpedance` -/
  ⟨"measurement64_sendSoundImpedance", 60, 40, [.f64], [.mem 0 0 7 true, .mem 1 0 6 true, .mem 2 0 5 true, .mem 3 0 4 true, .mem 4 0 3 true, .mem 5 0 2 true, .mem 6 0 1 true, .mem 7 0 0 true, .size 8]⟩,
  /- src/events/vscp_evt_measurement64.c:1257-1277 `vscp_evt_measurement64_sendSoundResistance` -/
  ⟨"measurement64_sendSoundResistance", 60, 41, [.f64], [.mem 0 0 7 true, .mem 1 0 6 true, .mem 2 0 5 true, .mem 3 0 4 true, .mem 4 0 3 true, .mem 5 0 2 true, .mem 6 0 1 true, .mem 7 0 0 true, .size 8]⟩,
  /- src/events/vscp_evt_measurement64.c:1286-1306 `vscp_evt_measurement64_sendElectricElastance` -/
  ⟨"measurement64_sendElectricElastance", 60, 42, [.f64], [.mem 0 0 7 true, .mem 1 0 6 true, .mem 2 0 5 true, .mem 3 0 4 true, .mem 4 0 3 true, .mem 5 0 2 true, .mem 6 0 1 true, .mem 7 0 0 true, .size 8]⟩,
  /- src/events/vscp_evt_measurement64.c:1315-1335 `vscp_evt_measurement64_sendLuminousEnergy` -/
  ⟨"measurement64_sendLuminousEnergy", 60, 43, [.f64], [.mem 0 0 7 true, .mem 1 0 6 true, .mem 2 0 5 true, .mem 3 0 4 true, .mem 4 0 3 true, .mem 5 0 2 true, .mem 6 0 1 true, .mem 7 0 0 true, .size 8]⟩,
  /- src/events/vscp_evt_measurement64.c:1344-1364 `vscp_evt_measurement64_sendLuminance` -/
  ⟨"measurement64_sendLuminance", 60, 44, [.f64], [.mem 0 0 7 true, .mem 1 0 6 true, .mem 2 0 5 true, .mem 3 0 4 true, .mem 4 0 3 true, .mem 5 0 2 true, .mem 6 0 1 true, .mem 7 0 0 true, .size 8]⟩,
  /- src/events/vscp_evt_measurement64.c:1373-1393 `vscp_evt_measurement64_sendChemicalConcentration` -/
  ⟨"measurement64_sendChemicalConcentration", 60, 45, [.f64], [.mem 0 0 7 true, .mem 1 0 6 true, .mem 2 0 5 true, .mem 3 0 4 true, .mem 4 0 3 true, .mem 5 0 2 true, .mem 6 0 1 true, .mem 7 0 0 true, .size 8]⟩,
  /- src/events/vscp_evt_measurement64.c:1404-1424 `vscp_evt_measurement64_sendDoseEquivalent` -/
  ⟨"measurement64_sendDoseEquivalent", 60, 47, [.f64], [.mem 0 0 7 true, .mem 1 0 6 true, .mem 2 0 5 true, .mem 3 0 4 true, .mem 4 0 3 true, .mem 5 0 2 true, .mem 6 0 1 true, .mem 7 0 0 true, .size 8]⟩,
  /- src/events/vscp_evt_measurement64.c:1435-1455 `vscp_evt_measurement64_sendDewPoint` -/
  ⟨"measurement64_sendDewPoint", 60, 49, [.f64], [.mem 0 0 7 true, .mem 1 0 6 true, .mem 2 0 5 true, .mem 3 0 4 true, .mem 4 0 3 true, .mem 5 0 2 true, .mem 6 0 1 true, .mem 7 0 0 true, .size 8]⟩,
  /- src/events/vscp_evt_measurement64.c:1464-1484 `vscp_evt_measurement64_sendRelativeLevel` -/
  ⟨"measurement64_sendRelativeLevel", 60, 50, [.f64], [.mem 0 0 7 true, .mem 1 0 6 true, .mem 2 0 5 true, .mem 3 0 4 true, .mem 4 0 3 true, .mem 5 0 2 true, .mem 6 0 1 true, .mem 7 0 0 true, .size 8]⟩,
  /- src/events/vscp_evt_measurement64.c:1493-1513 `vscp_evt_measurement64_sendAltitude` -/
  ⟨"measurement64_sendAltitude", 60, 51, [.f64], [.mem 0 0 7 true, .mem 1 0 6 true, .mem 2 0 5 true, .mem 3 0 4 true, .mem 4 0 3 true, .mem 5 0 2 true, .mem 6 0 1 true, .mem 7 0 0 true, .size 8]⟩,
  /- src/events/vscp_evt_measurement64.c:1522-1542 `vscp_evt_measurement64_sendArea` -/
  ⟨"measurement64_sendArea", 60, 52, [.f64], [.mem 0 0 7 true, .mem 1 0 6 true, .mem 2 0 5 true, .mem 3 0 4 true, .mem 4 0 3 true, .mem 5 0 2 true, .mem 6 0 1 true, .mem 7 0 0 true, .size 8]⟩,
  /- src/events/vscp_evt_measurement64.c:1551-1571 `vscp_evt_measurement64_sendRadiantIntensity` -/
  ⟨"measurement64_sendRadiantIntensity", 60, 53, [.f64], [.mem 0 0 7 true, .mem 1 0 6 true, .mem 2 0 5 true, .mem 3 0 4 true, .mem 4 0 3 true, .mem 5 0 2 true, .mem 6 0 1 true, .mem 7 0 0 true, .size 8]⟩,
  /- src/events/vscp_evt_measurement64.c:1580-1600 `vscp_evt_measurement64_sendRadiance` -/
  ⟨"measurement64_sendRadiance", 60, 54, [.f64], [.mem 0 0 7 true, .mem 1 0 6 true, .mem 2 0 5 true, .mem 3 0 4 true, .mem 4 0 3 true, .mem 5 0 2 true, .mem 6 0 1 true, .mem 7 0 0 true, .size 8]⟩,
  /- src/events/vscp_evt_measurement64.c:1609-1629 `vscp_evt_measurement64_sendIrradianceExitanceRadiosity` -/
  ⟨"measurement64_sendIrradianceExitanceRadiosity", 60, 55, [.f64], [.mem 0 0 7 true, .mem 1 0 6 true, .mem 2 0 5 true, .mem 3 0 4 true, .mem 4 0 3 true, .mem 5 0 2 true, .mem 6 0 1 true, .mem 7 0 0 true, .size 8]⟩,
  /- src/events/vscp_evt_measurement64.c:1638-1658 `vscp_evt_measurement64_sendSpectralRadiance` -/
  ⟨"measurement64_sendSpectralRadiance", 60, 56, [.f64], [.mem 0 0 7 true, .mem 1 0 6 true, .mem 2 0 5 true, .mem 3 0 4 true, .mem 4 0 3 true, .mem 5 0 2 true, .mem 6 0 1 true, .mem 7 0 0 true, .size 8]⟩,
  /- src/events/vscp_evt_measurement64.c:1667-1687 `vscp_evt_measurement64_sendSpectralIrradiance` -/
  ⟨"measurement64_sendSpectralIrradiance", 60, 57, [.f64], [.mem 0 0 7 true, .mem 1 0 6 true, .mem 2 0 5 true, .mem 3 0 4 true, .mem 4 0 3 true, .mem 5 0 2 true, .mem 6 0 1 true, .mem 7 0 0 true, .size 8]⟩,
  /- src/events/vscp_evt_measurement64.c:1696-1716 `vscp_evt_measurement64_sendSoundPressureAcousticPressure` -/
  ⟨"measurement64_sendSoundPressureAcousticPressure", 60, 58, [.f64], [.mem 0 0 7 true, .mem 1 0 6 true, .mem 2 0 5 true, .mem 3 0 4 true, .mem 4 0 3 true, .mem 5 0 2 true, .mem 6 0 1 true, .mem 7 0 0 true, .size 8]⟩,
  /- src/events/vscp_evt_measurement64.c:1725-1745 `vscp_evt_measurement64_sendSoundEnergyDensity` -/
  ⟨"measurement64_sendSoundEnergyDensity", 60, 59, [.f64], [.mem 0 0 7 true, .mem 1 0 6 true, .mem 2 0 5 true, .mem 3 0 4 true, .mem 4 0 3 true, .mem 5 0 2 true, .mem 6 0 1 true, .mem 7 0 0 true, .size 8]⟩,
  /- src/events/vscp_evt_measurement64.c:1754-1774 `vscp_evt_measurement64_sendSoundLevel` -/
  ⟨"measurement64_sendSoundLevel", 60, 60, [.f64], [.mem 0 0 7 true, .mem 1 0 6 true, .mem 2 0 5 true, .mem 3 0 4 true, .mem 4 0 3 true, .mem 5 0 2 true, .mem 6 0 1 true, .mem 7 0 0 true, .size 8]⟩,
  /- src/events/vscp_evt_measurement64.c:1783-1803 `vscp_evt_measurement64_sendRadiationDoseEquivalent` -/
  ⟨"measurement64_sendRadiationDoseEquivalent", 60, 61, [.f64], [.mem 0 0 7 true, .mem 1 0 6 true, .mem 2 0 5 true, .mem 3 0 4 true, .mem 4 0 3 true, .mem 5 0 2 true, .mem 6 0 1 true, .mem 7 0 0 true, .size 8]⟩,
  /- src/events/vscp_evt_measurement64.c:1812-1832 `vscp_evt_measurement64_sendRadiationDoseExposure` -/
  ⟨"measurement64_sendRadiationDoseExposure", 60, 62, [.f64], [.mem 0 0 7 true, .mem 1 0 6 true, .mem 2 0 5 true, .mem 3 0 4 true, .mem 4 0 3 true, .mem 5 0 2 true, .mem 6 0 1 true, .mem 7 0 0 true, .size 8]⟩,
  /- src/events/vscp_evt_measurement64.c:1841-1861 `vscp_evt_measurement64_sendPowerFactor` -/
  ⟨"measurement64_sendPowerFactor", 60, 63, [.f64], [.mem 0 0 7 true, .mem 1 0 6 true, .mem 2 0 5 true, .mem 3 0 4 true, .mem 4 0 3 true, .mem 5 0 2 true, .mem 6 0 1 true, .mem 7 0 0 true, .size 8]⟩,
  /- src/events/vscp_evt_measurement64.c:1870-1890 `vscp_evt_measurement64_sendReactivePower` -/
  ⟨"measurement64_sendReactivePower", 60, 64, [.f64], [.mem 0 0 7 true, .mem 1 0 6 true, .mem 2 0 5 true, .mem 3 0 4 true, .mem 4 0 3 true, .mem 5 0 2 true, .mem 6 0 1 true, .mem 7 0 0 true, .size 8]⟩,
  /- src/events/vscp_evt_measurement64.c:1899-1919 `vscp_evt_measurement64_sendReactiveEnergy` -/
  ⟨"measurement64_sendReactiveEnergy", 60, 65, [.f64], [.mem 0 0 7 true, .mem 1 0 6 true, .mem 2 0 5 true, .mem 3 0 4 true, .mem 4 0 3 true, .mem 5 0 2 true, .mem 6 0 1 true, .mem 7 0 0 true, .size 8]⟩]

/-- src/events/vscp_evt_measurezone.c: all send functions -/
def measurezone : List Fn := [
  /- src/events/vscp_evt_measurezone.c:80-89 `vscp_evt_measurezone_sendGeneralEvent` -/
  ⟨"measurezone_sendGeneralEvent", 65, 0, [], []⟩,
  /- src/events/vscp_evt_measurezone.c:102-116 `vscp_evt_measurezone_sendCount` -/
  ⟨"measurezone_sendCount", 65, 1, [.u8, .u8, .u8, .i32, .i8], [.size 3, .byte 0 0 0, .byte 1 1 0, .byte 2 2 0, .norm 3 3 4]⟩,
  /- src/events/vscp_evt_measurezone.c:129-143 `vscp_evt_measurezone_sendLengthDistance` -/
  ⟨"measurezone_sendLengthDistance", 65, 2, [.u8, .u8, .u8, .i32, .i8], [.size 3, .byte 0 0 0, .byte 1 1 0, .byte 2 2 0, .norm 3 3 4]⟩,
  /- src/events/vscp_evt_measurezone.c:156-170 `vscp_evt_measurezone_sendMass` -/
  ⟨"measurezone_sendMass", 65, 3, [.u8, .u8, .u8, .i32, .i8], [.size 3, .byte 0 0 0, .byte 1 1 0, .byte 2 2 0, .norm 3 3 4]⟩,
  /- src/events/vscp_evt_measurezone.c:183-197 `vscp_evt_measurezone_sendTime` -/
  ⟨"measurezone_sendTime", 65, 4, [.u8, .u8, .u8, .i32, .i8], [.size 3, .byte 0 0 0, .byte 1 1 0, .byte 2 2 0, .norm 3 3 4]⟩,
  /- src/events/vscp_evt_measurezone.c:210-224 `vscp_evt_measurezone_sendElectricCurrent` -/
  ⟨"measurezone_sendElectricCurrent", 65, 5, [.u8, .u8, .u8, .i32, .i8], [.size 3, .byte 0 0 0, .byte 1 1 0, .byte 2 2 0, .norm 3 3 4]⟩,
  /- src/events/vscp_evt_measurezone.c:237-251 `vscp_evt_measurezone_sendTemperature` -/
  ⟨"measurezone_sendTemperature", 65, 6, [.u8, .u8, .u8, .i32, .i8], [.size 3, .byte 0 0 0, .byte 1 1 0, .byte 2 2 0, .norm 3 3 4]⟩,
  /- src/events/vscp_evt_measurezone.c:264-278 `vscp_evt_measurezone_sendAmountOfSubstance` -/
  ⟨"measurezone_sendAmountOfSubstance", 65, 7, [.u8, .u8, .u8, .i32, .i8], [.size 3, .byte 0 0 0, .byte 1 1 0, .byte 2 2 0, .norm 3 3 4]⟩,
  /- src/events/vscp_evt_measurezone.c:291-305 `vscp_evt_measurezone_sendLuminousIntensityIntensityOfLight` -/
  ⟨"measurezone_sendLuminousIntensityIntensityOfLight", 65, 8, [.u8, .u8, .u8, .i32, .i8], [.size 3, .byte 0 0 0, .byte 1 1 0, .byte 2 2 0, .norm 3 3 4]⟩,
  /- src/events/vscp_evt_measurezone.c:318-332 `vscp_evt_measurezone_sendFrequency` -/
  ⟨"measurezone_sendFrequency", 65, 9, [.u8, .u8, .u8, .i32, .i8], [.size 3, .byte 0 0 0, .byte 1 1 0, .byte 2 2 0, .norm 3 3 4]⟩,
  /- src/events/vscp_evt_measurezone.c:345-359 `vscp_evt_measurezone_sendRadioactivityAndOtherRandomEvents` -/
  ⟨"measurezone_sendRadioactivityAndOtherRandomEvents", 65, 10, [.u8, .u8, .u8, .i32, .i8], [.size 3, .byte 0 0 0, .byte 1 1 0, .byte 2 2 0, .norm 3 3 4]⟩,
  /- src/events/vscp_evt_measurezone.c:372-386 `vscp_evt_measurezone_sendForce` -/
  ⟨"measurezone_sendForce", 65, 11, [.u8, .u8, .u8, .i32, .i8], [.size 3, .byte 0 0 0, .byte 1 1 0, .byte 2 2 0, .norm 3 3 4]⟩,
  /- src/events/vscp_evt_measurezone.c:399-413 `vscp_evt_measurezone_sendPressure` -/
  ⟨"measurezone_sendPressure", 65, 12, [.u8, .u8, .u8, .i32, .i8], [.size 3, .byte 0 0 0, .byte 1 1 0, .byte 2 2 0, .norm 3 3 4]⟩,
  /- src/events/vscp_evt_measurezone.c:426-440 `vscp_evt_measurezone_sendEnergy` -/
  ⟨"measurezone_sendEnergy", 65, 13, [.u8, .u8, .u8, .i32, .i8], [.size 3, .byte 0 0 0, .byte 1 1 0, .byte 2 2 0, .norm 3 3 4]⟩,
  /- src/events/vscp_evt_measurezone.c:453-467 `vscp_evt_measurezone_sendPower` -/
  ⟨"measurezone_sendPower", 65, 14, [.u8, .u8, .u8, .i32, .i8], [.size 3, .byte 0 0 0, .byte 1 1 0, .byte 2 2 0, .norm 3 3 4]⟩,
  /- src/events/vscp_evt_measurezone.c:480-494 `vscp_evt_measurezone_sendElectricalCharge` -/
  ⟨"measurezone_sendElectricalCharge", 65, 15, [.u8, .u8, .u8, .i32, .i8], [.size 3, .byte 0 0 0, .byte 1 1 0, .byte 2 2 0, .norm 3 3 4]⟩,
  /- src/events/vscp_evt_measurezone.c:507-521 `vscp_evt_measurezone_sendElectricalPotentialVoltage` -/
  ⟨"measurezone_sendElectricalPotentialVoltage", 65, 16, [.u8, .u8, .u8, .i32, .i8], [.size 3, .byte 0 0 0, .byte 1 1 0, .byte 2 2 0, .norm 3 3 4]⟩,
  /- src/events/vscp_evt_measurezone.c:534-548 `vscp_evt_measurezone_sendElectricalCapacitance` -/
  ⟨"measurezone_sendElectricalCapacitance", 65, 17, [.u8, .u8, .u8, .i32, .i8], [.size 3, .byte 0 0 0, .byte 1 1 0, .byte 2 2 0, .norm 3 3 4]⟩,
  /- src/events/vscp_evt_measurezone.c:561-575 `vscp_evt_measurezone_sendElectricalResistance` -/
  ⟨"measurezone_sendElectricalResistance", 65, 18, [.u8, .u8, .u8, .i32, .i8], [.size 3, .byte 0 0 0, .byte 1 1 0, .byte 2 2 0, .norm 3 3 4]⟩,
  /- src/events/vscp_evt_measurezone.c:588-602 `vscp_evt_measurezone_sendElectricalConductance` -/
  ⟨"measurezone_sendElectricalConductance", 65, 19, [.u8, .u8, .u8, .i32, .i8], [.size 3, .byte 0 0 0, .byte 1 1 0, .byte 2 2 0, .norm 3 3 4]⟩,
  /- src/events/vscp_evt_measurezone.c:615-629 `vscp_evt_measurezone_sendMagneticFieldStrength` -/
  ⟨"measurezone_sendMagneticFieldStrength", 65, 20, [.u8, .u8, .u8, .i32, .i8], [.size 3, .byte 0 0 0, .byte 1 1 0, .byte 2 2 0, .norm 3 3 4]⟩,
  /- src/events/vscp_evt_measurezone.c:642-656 `vscp_evt_measurezone_sendMagneticFlux` -/
  ⟨"measurezone_sendMagneticFlux", 65, 21, [.u8, .u8, .u8, .i32, .i8], [.size 3, .byte 0 0 0, .byte 1 1 0, .byte 2 2 0, .norm 3 3 4]⟩,
  /- src/events/vscp_evt_measurezone.c:669-683 `vscp_evt_measurezone_sendMagneticFluxDensity` -/
  ⟨"measurezone_sendMagneticFluxDensity", 65, 22, [.u8, .u8, .u8, .i32, .i8], [.size 3, .byte 0 0 0, .byte 1 1 0, .byte 2 2 0, .norm 3 3 4]⟩,
  /- src/events/vscp_evt_measurezone.c:696-710 `vscp_evt_measurezone_sendInductance` -/
  ⟨"measurezone_sendInductance", 65, 23, [.u8, .u8, .u8, .i32, .i8], [.size 3, .byte 0 0 0, .byte 1 1 0, .byte 2 2 0, .norm 3 3 4]⟩,
  /- src/events/vscp_evt_measurezone.c:723-737 `vscp_evt_measurezone_sendLuminousFlux` -/
  ⟨"measurezone_sendLuminousFlux", 65, 24, [.u8, .u8, .u8, .i32, .i8], [.size 3, .byte 0 0 0, .byte 1 1 0, .byte 2 2 0, .norm 3 3 4]⟩,
  /- src/events/vscp_evt_measurezone.c:750-764 `vscp_evt_measurezone_sendIlluminance` -/
  ⟨"measurezone_sendIlluminance", 65, 25, [.u8, .u8, .u8, .i32, .i8], [.size 3, .byte 0 0 0, .byte 1 1 0, .byte 2 2 0, .norm 3 3 4]⟩,
  /- src/events/vscp_evt_measurezone.c:777-791 `vscp_evt_measurezone_sendRadiationDose` -/
  ⟨"measurezone_sendRadiationDose", 65, 26, [.u8, .u8, .u8, .i32, .i8], [.size 3, .byte 0 0 0, .byte 1 1 0, .byte 2 2 0, .norm 3 3 4]⟩,
  /- src/events/vscp_evt_measurezone.c:804-818 `vscp_evt_measurezone_sendCatalyticActivity` -/
  ⟨"measurezone_sendCatalyticActivity", 65, 27, [.u8, .u8, .u8, .i32, .i8], [.size 3, .byte 0 0 0, .byte 1 1 0, .byte 2 2 0, .norm 3 3 4]⟩,
  /- src/events/vscp_evt_measurezone.c:831-845 `vscp_evt_measurezone_sendVolume` -/
  ⟨"measurezone_sendVolume", 65, 28, [.u8, .u8, .u8, .i32, .i8], [.size 3, .byte 0 0 0, .byte 1 1 0, .byte 2 2 0, .norm 3 3 4]⟩,
  /- src/events/vscp_evt_measurezone.c:858-872 `vscp_evt_measurezone_sendSoundIntensity` -/
  ⟨"measurezone_sendSoundIntensity", 65, 29, [.u8, .u8, .u8, .i32, .i8], [.size 3, .byte 0 0 0, .byte 1 1 0, .byte 2 2 0, .norm 3 3 4]⟩,
  /- src/events/vscp_evt_measurezone.c:885-899 `vscp_evt_measurezone_sendAngle` -/
  ⟨"measurezone_sendAngle", 65, 30, [.u8, .u8, .u8, .i32, .i8], [.size 3, .byte 0 0 0, .byte 1 1 0, .byte 2 2 0, .norm 3 3 4]⟩,
  /- src/events/vscp_evt_measurezone.c:912-926 `vscp_evt_measurezone_sendPositionWgs84` -/
  ⟨"measurezone_sendPositionWgs84", 65, 31, [.u8, .u8, .u8, .i32, .i8], [.size 3, .byte 0 0 0, .byte 1 1 0, .byte 2 2 0, .norm 3 3 4]⟩,
  /- src/events/vscp_evt_measurezone.c:939-953 `vscp_evt_measurezone_sendSpeed` -/
  ⟨"measurezone_sendSpeed", 65, 32, [.u8, .u8, .u8, .i32, .i8], [.size 3, .byte 0 0 0, .byte 1 1 0, .byte 2 2 0, .norm 3 3 4]⟩,
  /- src/events/vscp_evt_measurezone.c:966-980 `vscp_evt_measurezone_sendAcceleration` -/
  ⟨"measurezone_sendAcceleration", 65, 33, [.u8, .u8, .u8, .i32, .i8], [.size 3, .byte 0 0 0, .byte 1 1 0, .byte 2 2 0, .norm 3 3 4]⟩,
  /- src/events/vscp_evt_measurezone.c:993-1007 `vscp_evt_measurezone_sendTension` -/
  ⟨"measurezone_sendTension", 65, 34, [.u8, .u8, .u8, .i32, .i8], [.size 3, .byte 0 0 0, .byte 1 1 0, .byte 2 2 0, .norm 3 3 4]⟩,
  /- src/events/vscp_evt_measurezone.c:1020-1034 `vscp_evt_measurezone_sendDampMoistHygrometerReading` -/
  ⟨"measurezone_sendDampMoistHygrometerReading", 65, 35, [.u8, .u8, .u8, .i32, .i8], [.size 3, .byte 0 0 0, .byte 1 1 0, .byte 2 2 0, .norm 3 3 4]⟩,
  /- src/events/vscp_evt_measurezone.c:1047-1061 `vscp_evt_measurezone_sendFlow` -/
  ⟨"measurezone_sendFlow", 65, 36, [.u8, .u8, .u8, .i32, .i8], [.size 3, .byte 0 0 0, .byte 1 1 0, .byte 2 2 0, .norm 3 3 4]⟩,
  /- src/events/vscp_evt_measurezone.c:1074-1088 `vscp_evt_measurezone_sendThermalResistance` -/
  ⟨"measurezone_sendThermalResistance", 65, 37, [.u8, .u8, .u8, .i32, .i8], [.size 3, .byte 0 0 0, .byte 1 1 0, .byte 2 2 0, .norm 3 3 4]⟩,
  /- src/events/vscp_evt_measurezone.c:1101-1115 `vscp_evt_measurezone_sendRefractiveOpticalPower` -/
  ⟨"measurezone_sendRefractiveOpticalPower", 65, 38, [.u8, .u8, .u8, .i32, .i8], [.size 3, .byte 0 0 0, .byte 1 1 0, .byte 2 2 0, .norm 3 3 4]⟩,
  /- src/events/vscp_evt_measurezone.c:1128-1142 `vscp_evt_measurezone_sendDynamicViscosity` -/
  ⟨"measurezone_sendDynamicViscosity", 65, 39, [.u8, .u8, .u8, .i32, .i8], [.size 3, .byte 0 0 0, .byte 1 1 0, .byte 2 2 0, .norm 3 3 4]⟩,
  /- src/events/vscp_evt_measurezone.c:1155-1169 `vscp_evt_measurezone_sendSoundImpedance` -/
  ⟨"measurezone_sendSoundImpedance", 65, 40, [.u8, .u8, .u8, .i32, .i8], [.size 3, .byte 0 0 0, .byte 1 1 0, .byte 2 2 0, .norm 3 3 4]⟩,
  /- src/events/vscp_evt_measurezone.c:1182-1196 `vscp_evt_measurezone_sendSoundResistance` -/
  ⟨"measurezone_sendSoundResistance", 65, 41, [.u8, .u8, .u8, .i32, .i8], [.size 3, .byte 0 0 0, .byte 1 1 0, .byte 2 2 0, .norm 3 3 4]⟩,
  /- src/events/vscp_evt_measurezone.c:1209-1223 `vscp_evt_measurezone_sendElectricElastance` -/
  ⟨"measurezone_sendElectricElastance", 65, 42, [.u8, .u8, .u8, .i32, .i8], [.size 3, .byte 0 0 0, .byte 1 1 0, .byte 2 2 0, .norm 3 3 4]⟩,
  /- src/events/vscp_evt_measurezone.c:1236-1250 `vscp_evt_measurezone_sendLuminousEnergy` -/
  ⟨"measurezone_sendLuminousEnergy", 65, 43, [.u8, .u8, .u8, .i32, .i8], [.size 3, .byte 0 0 0, .byte 1 1 0, .byte 2 2 0, .norm 3 3 4]⟩,
  /- src/events/vscp_evt_measurezone.c:1263-1277 `vscp_evt_measurezone_sendLuminance` -/
  ⟨"measurezone_sendLuminance", 65, 44, [.u8, .u8, .u8, .i32, .i8], [.size 3, .byte 0 0 0, .byte 1 1 0, .byte 2 2 0, .norm 3 3 4]⟩,
  /- src/events/vscp_evt_measurezone.c:1290-1304 `vscp_evt_measurezone_sendChemicalConcentration` -/
  ⟨"measurezone_sendChemicalConcentration", 65, 45, [.u8, .u8, .u8, .i32, .i8], [.size 3, .byte 0 0 0, .byte 1 1 0, .byte 2 2 0, .norm 3 3 4]⟩,
  /- src/events/vscp_evt_measurezone.c:1319-1333 `vscp_evt_measurezone_sendDoseEquivalent` -/
  ⟨"measurezone_sendDoseEquivalent", 65, 47, [.u8, .u8, .u8, .i32, .i8], [.size 3, .byte 0 0 0, .byte 1 1 0, .byte 2 2 0, .norm 3 3 4]⟩,
  /- src/events/vscp_evt_measurezone.c:1348-1362 `vscp_evt_measurezone_sendDewPoint` -/
  ⟨"measurezone_sendDewPoint", 65, 49, [.u8, .u8, .u8, .i32, .i8], [.size 3, .byte 0 0 0, .byte 1 1 0, .byte 2 2 0, .norm 3 3 4]⟩,
  /- src/events/vscp_evt_measurezone.c:1375-1389 `vscp_evt_measurezone_sendRelativeLevel` -/
  ⟨"measurezone_sendRelativeLevel", 65, 50, [.u8, .u8, .u8, .i32, .i8], [.size 3, .byte 0 0 0, .byte 1 1 0, .byte 2 2 0, .norm 3 3 4]⟩,
  /- src/events/vscp_evt_measurezone.c:1402-1416 `vscp_evt_measurezone_sendAltitude` -/
  ⟨"measurezone_sendAltitude", 65, 51, [.u8, .u8, .u8, .i32, .i8], [.size 3, .byte 0 0 0, .byte 1 1 0, .byte 2 2 0, .norm 3 3 4]⟩,
  /- src/events/vscp_evt_measurezone.c:1429-1443 `vscp_evt_measurezone_sendArea` -/
  ⟨"measurezone_sendArea", 65, 52, [.u8, .u8, .u8, .i32, .i8], [.size 3, .byte 0 0 0, .byte 1 1 0, .byte 2 2 0, .norm 3 3 4]⟩,
  /- src/events/vscp_evt_measurezone.c:1456-1470 `vscp_evt_measurezone_sendRadiantIntensity` -/
  ⟨"measurezone_sendRadiantIntensity", 65, 53, [.u8, .u8, .u8, .i32, .i8], [.size 3, .byte 0 0 0, .byte 1 1 0, .byte 2 2 0, .norm 3 3 4]⟩,
  /- src/events/vscp_evt_measurezone.c:1483-1497 `vscp_evt_measurezone_sendRadiance` -/
  ⟨"measurezone_sendRadiance", 65, 54, [.u8, .u8, .u8, .i32, .i8], [.size 3, .byte 0 0 0, .byte 1 1 0, .byte 2 2 0, .norm 3 3 4]⟩,
  /- src/events/vscp_evt_measurezone.c:1510-1524 `vscp_evt_measurezone_sendIrradianceExitanceRadiosity` -/
  ⟨"measurezone_sendIrradianceExitanceRadiosity", 65, 55, [.u8, .u8, .u8, .i32, .i8], [.size 3, .byte 0 0 0, .byte 1 1 0, .byte 2 2 0, .norm 3 3 4]⟩,
  /- src/events/vscp_evt_measurezone.c:1537-1551 `vscp_evt_measurezone_sendSpectralRadiance` -/
  ⟨"measurezone_sendSpectralRadiance", 65, 56, [.u8, .u8, .u8, .i32, .i8], [.size 3, .byte 0 0 0, .byte 1 1 0, .byte 2 2 0, .norm 3 3 4]⟩,
  /- src/events/vscp_evt_measurezone.c:1564-1578 `vscp_evt_measurezone_sendSpectralIrradiance` -/
  ⟨"measurezone_sendSpectralIrradiance", 65, 57, [.u8, .u8, .u8, .i32, .i8], [.size 3, .byte 0 0 0, .byte 1 1 0, .byte 2 2 0, .norm 3 3 4]⟩,
  /- src/events/vscp_evt_measurezone.c:1591-1605 `vscp_evt_measurezone_sendSoundPressureAcousticPressure` -/
  ⟨"measurezone_sendSoundPressureAcousticPressure", 65, 58, [.u8, .u8, .u8, .i32, .i8], [.size 3, .byte 0 0 0, .byte 1 1 0, .byte 2 2 0, .norm 3 3 4]⟩,
  /- src/events/vscp_evt_measurezone.c:1618-1632 `vscp_evt_measurezone_sendSoundEnergyDensity` -/
  ⟨"measurezone_sendSoundEnergyDensity", 65, 59, [.u8, .u8, .u8, .i32, .i8], [.size 3, .byte 0 0 0, .byte 1 1 0, .byte 2 2 0, .norm 3 3 4]⟩,
  /- src/events/vscp_evt_measurezone.c:1645-1659 `vscp_evt_measurezone_sendSoundLevel` -/
  ⟨"measurezone_sendSoundLevel", 65, 60, [.u8, .u8, .u8, .i32, .i8], [.size 3, .byte 0 0 0, .byte 1 1 0, .byte 2 2 0, .norm 3 3 4]⟩,
  /- src/events/vscp_evt_measurezone.c:1672-1686 `vscp_evt_measurezone_sendRadiationDoseEquivalent` -/
  ⟨"measurezone_sendRadiationDoseEquivalent", 65, 61, [.u8, .u8, .u8, .i32, .i8], [.size 3, .byte 0 0 0, .byte 1 1 0, .byte 2 2 0, .norm 3 3 4]⟩,
  /- src/events/vscp_evt_measurezone.c:1699-1713 `vscp_evt_measurezone_sendRadiationDoseExposure` -/
  ⟨"measurezone_sendRadiationDoseExposure", 65, 62, [.u8, .u8, .u8, .i32, .i8], [.size 3, .byte 0 0 0, .byte 1 1 0, .byte 2 2 0, .norm 3 3 4]⟩,
  /- src/events/vscp_evt_measurezone.c:1726-1740 `vscp_evt_measurezone_sendPowerFactor` -/
  ⟨"measurezone_sendPowerFactor", 65, 63, [.u8, .u8, .u8, .i32, .i8], [.size 3, .byte 0 0 0, .byte 1 1 0, .byte 2 2 0, .norm 3 3 4]⟩,
  /- src/events/vscp_evt_measurezone.c:1753-1767 `vscp_evt_measurezone_sendReactivePower` -/
  ⟨"measurezone_sendReactivePower", 65, 64, [.u8, .u8, .u8, .i32, .i8], [.size 3, .byte 0 0 0, .byte 1 1 0, .byte 2 2 0, .norm 3 3 4]⟩,
  /- src/events/vscp_evt_measurezone.c:1780-1794 `vscp_evt_measurezone_sendReactiveEnergy` -/
  ⟨"measurezone_sendReactiveEnergy", 65, 65, [.u8, .u8, .u8, .i32, .i8], [.size 3, .byte 0 0 0, .byte 1 1 0, .byte 2 2 0, .norm 3 3 4]⟩]

/-- src/events/vscp_evt_multimedia.c: all send functions -/
def multimedia : List Fn := [
  /- src/events/vscp_evt_multimedia.c:79-88 `vscp_evt_multimedia_sendGeneralEvent` -/
  ⟨"multimedia_sendGeneralEvent", 40, 0, [], []⟩,
  /- src/events/vscp_evt_multimedia.c:99-118 `vscp_evt_multimedia_sendPlayback` -/
  ⟨"multimedia_sendPlayback", 40, 1, [.u8, .u8, .u8], [.byte 0 0 0, .size 1, .byte 1 1 0, .size 1, .byte 2 2 0, .size 1]⟩,
  /- src/events/vscp_evt_multimedia.c:129-148 `vscp_evt_multimedia_sendNavigatorkeyEnglish` -/
  ⟨"multimedia_sendNavigatorkeyEnglish", 40, 2, [.u8, .u8, .u8], [.byte 0 0 0, .size 1, .byte 1 1 0, .size 1, .byte 2 2 0, .size 1]⟩,
  /- src/events/vscp_evt_multimedia.c:162-181 `vscp_evt_multimedia_sendAdjustContrast` -/
  ⟨"multimedia_sendAdjustContrast", 40, 3, [.u8, .u8, .u8], [.byte 0 0 0, .size 1, .byte 1 1 0, .size 1, .byte 2 2 0, .size 1]⟩,
  /- src/events/vscp_evt_multimedia.c:195-214 `vscp_evt_multimedia_sendAdjustFocus` -/
  ⟨"multimedia_sendAdjustFocus", 40, 4, [.u8, .u8, .u8], [.byte 0 0 0, .size 1, .byte 1 1 0, .size 1, .byte 2 2 0, .size 1]⟩,
  /- src/events/vscp_evt_multimedia.c:228-247 `vscp_evt_multimedia_sendAdjustTint` -/
  ⟨"multimedia_sendAdjustTint", 40, 5, [.u8, .u8, .u8], [.byte 0 0 0, .size 1, .byte 1 1 0, .size 1, .byte 2 2 0, .size 1]⟩,
  /- src/events/vscp_evt_multimedia.c:258-277 `vscp_evt_multimedia_sendAdjustColorBalance` -/
  ⟨"multimedia_sendAdjustColorBalance", 40, 6, [.u8, .u8, .u8], [.byte 0 0 0, .size 1, .byte 1 1 0, .size 1, .byte 2 2 0, .size 1]⟩,
  /- src/events/vscp_evt_multimedia.c:291-310 `vscp_evt_multimedia_sendAdjustBrightness` -/
  ⟨"multimedia_sendAdjustBrightness", 40, 7, [.u8, .u8, .u8], [.byte 0 0 0, .size 1, .byte 1 1 0, .size 1, .byte 2 2 0, .size 1]⟩,
  /- src/events/vscp_evt_multimedia.c:324-343 `vscp_evt_multimedia_sendAdjustHue` -/
  ⟨"multimedia_sendAdjustHue", 40, 8, [.u8, .u8, .u8], [.byte 0 0 0, .size 1, .byte 1 1 0, .size 1, .byte 2 2 0, .size 1]⟩,
  /- src/events/vscp_evt_multimedia.c:357-376 `vscp_evt_multimedia_sendAdjustBass` -/
  ⟨"multimedia_sendAdjustBass", 40, 9, [.u8, .u8, .u8], [.byte 0 0 0, .size 1, .byte 1 1 0, .size 1, .byte 2 2 0, .size 1]⟩,
  /- src/events/vscp_evt_multimedia.c:390-409 `vscp_evt_multimedia_sendAdjustTreble` -/
  ⟨"multimedia_sendAdjustTreble", 40, 10, [.u8, .u8, .u8], [.byte 0 0 0, .size 1, .byte 1 1 0, .size 1, .byte 2 2 0, .size 1]⟩,
  /- src/events/vscp_evt_multimedia.c:423-442 `vscp_evt_multimedia_sendAdjustMasterVolume` -/
  ⟨"multimedia_sendAdjustMasterVolume", 40, 11, [.u8, .u8, .u8], [.byte 0 0 0, .size 1, .byte 1 1 0, .size 1, .byte 2 2 0, .size 1]⟩,
  /- src/events/vscp_evt_multimedia.c:456-475 `vscp_evt_multimedia_sendAdjustFrontVolume` -/
  ⟨"multimedia_sendAdjustFrontVolume", 40, 12, [.u8, .u8, .u8], [.byte 0 0 0, .size 1, .byte 1 1 0, .size 1, .byte 2 2 0, .size 1]⟩,
  /- src/events/vscp_evt_multimedia.c:489-508 `vscp_evt_multimedia_sendAdjustCenterVolume` -/
  ⟨"multimedia_sendAdjustCenterVolume", 40, 13, [.u8, .u8, .u8], [.byte 0 0 0, .size 1, .byte 1 1 0, .size 1, .byte 2 2 0, .size 1]⟩,
  /- src/events/vscp_evt_multimedia.c:522-541 `vscp_evt_multimedia_sendAdjustRearVolume` -/
  ⟨"multimedia_sendAdjustRearVolume", 40, 14, [.u8, .u8, .u8], [.byte 0 0 0, .size 1, .byte 1 1 0, .size 1, .byte 2 2 0, .size 1]⟩,
  /- src/events/vscp_evt_multimedia.c:555-574 `vscp_evt_multimedia_sendAdjustSideVolume` -/
  ⟨"multimedia_sendAdjustSideVolume", 40, 15, [.u8, .u8, .u8], [.byte 0 0 0, .size 1, .byte 1 1 0, .size 1, .byte 2 2 0, .size 1]⟩,
  /- src/events/vscp_evt_multimedia.c:596-615 `vscp_evt_multimedia_sendSelectDisk` -/
  ⟨"multimedia_sendSelectDisk", 40, 20, [.u8, .u8, .u8], [.byte 0 0 0, .size 1, .byte 1 1 0, .size 1, .byte 2 2 0, .size 1]⟩,
  /- src/events/vscp_evt_multimedia.c:629-648 `vscp_evt_multimedia_sendSelectTrack` -/
  ⟨"multimedia_sendSelectTrack", 40, 21, [.u8, .u8, .u8], [.byte 0 0 0, .size 1, .byte 1 1 0, .size 1, .byte 2 2 0, .size 1]⟩,
  /- src/events/vscp_evt_multimedia.c:663-682 `vscp_evt_multimedia_sendSelectAlbumPlayList` -/
  ⟨"multimedia_sendSelectAlbumPlayList", 40, 22, [.u8, .u8, .u8], [.byte 0 0 0, .size 1, .byte 1 1 0, .size 1, .byte 2 2 0, .size 1]⟩,
  /- src/events/vscp_evt_multimedia.c:696-715 `vscp_evt_multimedia_sendSelectChannel` -/
  ⟨"multimedia_sendSelectChannel", 40, 23, [.u8, .u8, .u8], [.byte 0 0 0, .size 1, .byte 1 1 0, .size 1, .byte 2 2 0, .size 1]⟩,
  /- src/events/vscp_evt_multimedia.c:729-748 `vscp_evt_multimedia_sendSelectPage` -/
  ⟨"multimedia_sendSelectPage", 40, 24, [.u8, .u8, .u8], [.byte 0 0 0, .size 1, .byte 1 1 0, .size 1, .byte 2 2 0, .size 1]⟩,
  /- src/events/vscp_evt_multimedia.c:762-781 `vscp_evt_multimedia_sendSelectChapter` -/
  ⟨"multimedia_sendSelectChapter", 40, 25, [.u8, .u8, .u8], [.byte 0 0 0, .size 1, .byte 1 1 0, .size 1, .byte 2 2 0, .size 1]⟩,
  /- src/events/vscp_evt_multimedia.c:792-811 `vscp_evt_multimedia_sendSelectScreenFormat` -/
  ⟨"multimedia_sendSelectScreenFormat", 40, 26, [.u8, .u8, .u8], [.byte 0 0 0, .size 1, .byte 1 1 0, .size 1, .byte 2 2 0, .size 1]⟩,
  /- src/events/vscp_evt_multimedia.c:822-841 `vscp_evt_multimedia_sendSelectInputSource` -/
  ⟨"multimedia_sendSelectInputSource", 40, 27, [.u8, .u8, .u8], [.byte 0 0 0, .size 1, .byte 1 1 0, .size 1, .byte 2 2 0, .size 1]⟩,
  /- src/events/vscp_evt_multimedia.c:852-871 `vscp_evt_multimedia_sendSelectOutput` -/
  ⟨"multimedia_sendSelectOutput", 40, 28, [.u8, .u8, .u8], [.byte 0 0 0, .size 1, .byte 1 1 0, .size 1, .byte 2 2 0, .size 1]⟩,
  /- src/events/vscp_evt_multimedia.c:882-901 `vscp_evt_multimedia_sendRecord` -/
  ⟨"multimedia_sendRecord", 40, 29, [.u8, .u8, .u8], [.byte 0 0 0, .size 1, .byte 1 1 0, .size 1, .byte 2 2 0, .size 1]⟩,
  /- src/events/vscp_evt_multimedia.c:915-934 `vscp_evt_multimedia_sendSetRecordingVolume` -/
  ⟨"multimedia_sendSetRecordingVolume", 40, 30, [.u8, .u8, .u8], [.byte 0 0 0, .size 1, .byte 1 1 0, .size 1, .byte 2 2 0, .size 1]⟩,
  /- src/events/vscp_evt_multimedia.c:945-964 `vscp_evt_multimedia_sendTivoFunction` -/
  ⟨"multimedia_sendTivoFunction", 40, 40, [.u8, .u8, .u8], [.byte 0 0 0, .size 1, .byte 1 1 0, .size 1, .byte 2 2 0, .size 1]⟩,
  /- src/events/vscp_evt_multimedia.c:975-994 `vscp_evt_multimedia_sendGetCurrentTitle` -/
  ⟨"multimedia_sendGetCurrentTitle", 40, 50, [.u8, .u8, .u8], [.byte 0 0 0, .size 1, .byte 1 1 0, .size 1, .byte 2 2 0, .size 1]⟩,
  /- src/events/vscp_evt_multimedia.c:1009-1045 `vscp_evt_multimedia_sendSetMediaPositionInMilliseconds` -/
  ⟨"multimedia_sendSetMediaPositionInMilliseconds", 40, 51, [.u8, .u8, .u8, .arr, .len], [.need 3 4, .byte 0 0 0, .size 1, .byte 1 1 0, .size 1, .byte 2 2 0, .size 1, .loop 3 3 4]⟩,
  /- src/events/vscp_evt_multimedia.c:1057-1076 `vscp_evt_multimedia_sendGetMediaInformation` -/
  ⟨"multimedia_sendGetMediaInformation", 40, 52, [.u8, .u8, .u8], [.byte 0 0 0, .size 1, .byte 1 1 0, .size 1, .byte 2 2 0, .size 1]⟩,
  /- src/events/vscp_evt_multimedia.c:1088-1107 `vscp_evt_multimedia_sendRemoveItemFromAlbum` -/
  ⟨"multimedia_sendRemoveItemFromAlbum", 40, 53, [.u8, .u8, .u8], [.byte 0 0 0, .size 1, .byte 1 1 0, .size 1, .byte 2 2 0, .size 1]⟩,
  /- src/events/vscp_evt_multimedia.c:1118-1137 `vscp_evt_multimedia_sendRemoveAllItemsFromAlbum` -/
  ⟨"multimedia_sendRemoveAllItemsFromAlbum", 40, 54, [.u8, .u8, .u8], [.byte 0 0 0, .size 1, .byte 1 1 0, .size 1, .byte 2 2 0, .size 1]⟩,
  /- src/events/vscp_evt_multimedia.c:1148-1167 `vscp_evt_multimedia_sendSaveAlbumPlayList` -/
  ⟨"multimedia_sendSaveAlbumPlayList", 40, 55, [.u8, .u8, .u8], [.byte 0 0 0, .size 1, .byte 1 1 0, .size 1, .byte 2 2 0, .size 1]⟩,
  /- src/events/vscp_evt_multimedia.c:1181-1220 `vscp_evt_multimedia_sendMultimediaControl` -/
  ⟨"multimedia_sendMultimediaControl", 40, 60, [.u8, .u8, .u8, .u8, .arr, .len], [.need 4 5, .byte 0 0 0, .size 1, .byte 1 1 0, .size 1, .byte 2 2 0, .size 1, .byte 3 3 0, .size 1, .loop 4 4 5]⟩]

/-- src/events/vscp_evt_phone.c: all send functions -/
def phone : List Fn := [
  /- src/events/vscp_evt_phone.c:79-88 `vscp_evt_phone_sendGeneralEvent` -/
  ⟨"phone_sendGeneralEvent", 100, 0, [], []⟩,
  /- src/events/vscp_evt_phone.c:102-138 `vscp_evt_phone_sendIncomingCall` -/
  ⟨"phone_sendIncomingCall", 100, 1, [.u8, .u8, .u8, .arr, .len], [.need 3 4, .byte 0 0 0, .size 1, .byte 1 1 0, .size 1, .byte 2 2 0, .size 1, .loop 3 3 4]⟩,
  /- src/events/vscp_evt_phone.c:152-188 `vscp_evt_phone_sendOutgoingCall` -/
  ⟨"phone_sendOutgoingCall", 100, 2, [.u8, .u8, .u8, .arr, .len], [.need 3 4, .byte 0 0 0, .size 1, .byte 1 1 0, .size 1, .byte 2 2 0, .size 1, .loop 3 3 4]⟩,
  /- src/events/vscp_evt_phone.c:197-210 `vscp_evt_phone_sendRing` -/
  ⟨"phone_sendRing", 100, 3, [.u8], [.byte 0 0 0, .size 1]⟩,
  /- src/events/vscp_evt_phone.c:224-260 `vscp_evt_phone_sendAnswer` -/
  ⟨"phone_sendAnswer", 100, 4, [.u8, .u8, .u8, .arr, .len], [.need 3 4, .byte 0 0 0, .size 1, .byte 1 1 0, .size 1, .byte 2 2 0, .size 1, .loop 3 3 4]⟩,
  /- src/events/vscp_evt_phone.c:269-282 `vscp_evt_phone_sendHangup` -/
  ⟨"phone_sendHangup", 100, 5, [.u8], [.byte 0 0 0, .size 1]⟩,
  /- src/events/vscp_evt_phone.c:291-304 `vscp_evt_phone_sendGiveup` -/
  ⟨"phone_sendGiveup", 100, 6, [.u8], [.byte 0 0 0, .size 1]⟩,
  /- src/events/vscp_evt_phone.c:313-326 `vscp_evt_phone_sendTransfer` -/
  ⟨"phone_sendTransfer", 100, 7, [.u8], [.byte 0 0 0, .size 1]⟩,
  /- src/events/vscp_evt_phone.c:340-376 `vscp_evt_phone_sendDatabaseInfo` -/
  ⟨"phone_sendDatabaseInfo", 100, 8, [.u8, .u8, .u8, .arr, .len], [.need 3 4, .byte 0 0 0, .size 1, .byte 1 1 0, .size 1, .byte 2 2 0, .size 1, .loop 3 3 4]⟩]

/-- src/events/vscp_evt_protocol.c: all send functions -/
def protocol : List Fn := [
  /- src/events/vscp_evt_protocol.c:79-88 `vscp_evt_protocol_sendGeneralEvent` -/
  ⟨"protocol_sendGeneralEvent", 0, 0, [], []⟩,
  /- src/events/vscp_evt_protocol.c:98-120 `vscp_evt_protocol_sendSegmentControllerHeartbeat` -/
  ⟨"protocol_sendSegmentControllerHeartbeat", 0, 1, [.u8, .opt32], [.byte 0 0 0, .size 1, .opt 1 [(1, 24), (2, 16), (3, 8), (4, 0)] 4]⟩,
  /- src/events/vscp_evt_protocol.c:132-145 `vscp_evt_protocol_sendNewNodeOnLineProbe` -/
  ⟨"protocol_sendNewNodeOnLineProbe", 0, 2, [.u8], [.byte 0 0 0, .size 1]⟩,
  /- src/events/vscp_evt_protocol.c:152-161 `vscp_evt_protocol_sendProbeAck` -/
  ⟨"protocol_sendProbeAck", 0, 3, [], []⟩,
  /- src/events/vscp_evt_protocol.c:175-191 `vscp_evt_protocol_sendSetNicknameIdForNode` -/
  ⟨"protocol_sendSetNicknameIdForNode", 0, 6, [.u8, .u8], [.byte 0 0 0, .size 1, .byte 1 1 0, .size 1]⟩,
  /- src/events/vscp_evt_protocol.c:198-207 `vscp_evt_protocol_sendNicknameIdAccepted` -/
  ⟨"protocol_sendNicknameIdAccepted", 0, 7, [], []⟩,
  /- src/events/vscp_evt_protocol.c:219-244 `vscp_evt_protocol_sendDropNicknameIdResetDevice` -/
  ⟨"protocol_sendDropNicknameIdResetDevice", 0, 8, [.u8, .opt8, .opt8], [.byte 0 0 0, .size 1, .opt 1 [(1, 0)] 1, .opt 2 [(2, 0)] 1]⟩,
  /- src/events/vscp_evt_protocol.c:254-270 `vscp_evt_protocol_sendReadRegister` -/
  ⟨"protocol_sendReadRegister", 0, 9, [.u8, .u8], [.byte 0 0 0, .size 1, .byte 1 1 0, .size 1]⟩,
  /- src/events/vscp_evt_protocol.c:280-296 `vscp_evt_protocol_sendReadWriteResponse` -/
  ⟨"protocol_sendReadWriteResponse", 0, 10, [.u8, .u8], [.byte 0 0 0, .size 1, .byte 1 1 0, .size 1]⟩,
  /- src/events/vscp_evt_protocol.c:307-326 `vscp_evt_protocol_sendWriteRegister` -/
  ⟨"protocol_sendWriteRegister", 0, 11, [.u8, .u8, .u8], [.byte 0 0 0, .size 1, .byte 1 1 0, .size 1, .byte 2 2 0, .size 1]⟩,
  /- src/events/vscp_evt_protocol.c:341-373 `vscp_evt_protocol_sendEnterBootLoaderMode` -/
  ⟨"protocol_sendEnterBootLoaderMode", 0, 12, [.u8, .u8, .u8, .u8, .u8, .u8, .u16], [.byte 0 0 0, .size 1, .byte 1 1 0, .size 1, .byte 2 2 0, .size 1, .byte 3 3 0, .size 1, .byte 4 4 0, .size 1, .byte 5 5 0, .size 1, .byte 6 6 8, .byte 7 6 0, .size 2]⟩,
  /- src/events/vscp_evt_protocol.c:383-405 `vscp_evt_protocol_sendAckBootLoaderMode` -/
  ⟨"protocol_sendAckBootLoaderMode", 0, 13, [.u32, .u32], [.byte 0 0 24, .byte 1 0 16, .byte 2 0 8, .byte 3 0 0, .size 4, .byte 4 1 24, .byte 5 1 16, .byte 6 1 8, .byte 7 1 0, .size 4]⟩,
  /- src/events/vscp_evt_protocol.c:414-433 `vscp_evt_protocol_sendNackBootLoaderMode` -/
  ⟨"protocol_sendNackBootLoaderMode", 0, 14, [.opt32], [.opt 0 [(0, 24), (1, 16), (2, 8), (3, 0)] 4]⟩,
  /- src/events/vscp_evt_protocol.c:443-465 `vscp_evt_protocol_sendStartBlockDataTransfer` -/
  ⟨"protocol_sendStartBlockDataTransfer", 0, 15, [.u32, .opt8], [.byte 0 0 24, .byte 1 0 16, .byte 2 0 8, .byte 3 0 0, .size 4, .opt 1 [(4, 0)] 1]⟩,
  /- src/events/vscp_evt_protocol.c:475-502 `vscp_evt_protocol_sendBlockData` -/
  ⟨"protocol_sendBlockData", 0, 16, [.arr, .len], [.need 0 1, .loop 0 0 1]⟩,
  /- src/events/vscp_evt_protocol.c:512-532 `vscp_evt_protocol_sendAckDataBlock` -/
  ⟨"protocol_sendAckDataBlock", 0, 17, [.u16, .u32], [.byte 0 0 8, .byte 1 0 0, .size 2, .byte 2 1 24, .byte 3 1 16, .byte 4 1 8, .byte 5 1 0, .size 4]⟩,
  /- src/events/vscp_evt_protocol.c:542-561 `vscp_evt_protocol_sendNackDataBlock` -/
  ⟨"protocol_sendNackDataBlock", 0, 18, [.u8, .u32], [.byte 0 0 0, .size 1, .byte 1 1 24, .byte 2 1 16, .byte 3 1 8, .byte 4 1 0, .size 4]⟩,
  /- src/events/vscp_evt_protocol.c:570-586 `vscp_evt_protocol_sendProgramDataBlock` -/
  ⟨"protocol_sendProgramDataBlock", 0, 19, [.u32], [.byte 0 0 24, .byte 1 0 16, .byte 2 0 8, .byte 3 0 0, .size 4]⟩,
  /- src/events/vscp_evt_protocol.c:595-611 `vscp_evt_protocol_sendAckProgramDataBlock` -/
  ⟨"protocol_sendAckProgramDataBlock", 0, 20, [.u32], [.byte 0 0 24, .byte 1 0 16, .byte 2 0 8, .byte 3 0 0, .size 4]⟩,
  /- src/events/vscp_evt_protocol.c:621-640 `vscp_evt_protocol_sendNackProgramDataBlock` -/
  ⟨"protocol_sendNackProgramDataBlock", 0, 21, [.u8, .u32], [.byte 0 0 0, .size 1, .byte 1 1 24, .byte 2 1 16, .byte 3 1 8, .byte 4 1 0, .size 4]⟩,
  /- src/events/vscp_evt_protocol.c:649-663 `vscp_evt_protocol_sendActivateNewImage` -/
  ⟨"protocol_sendActivateNewImage", 0, 22, [.u16], [.byte 0 0 8, .byte 1 0 0, .size 2]⟩,
  /- src/events/vscp_evt_protocol.c:676-695 `vscp_evt_protocol_sendPageRead` -/
  ⟨"protocol_sendPageRead", 0, 24, [.u8, .u8, .u8], [.byte 0 0 0, .size 1, .byte 1 1 0, .size 1, .byte 2 2 0, .size 1]⟩,
  /- src/events/vscp_evt_protocol.c:707-740 `vscp_evt_protocol_sendPageWrite` -/
  ⟨"protocol_sendPageWrite", 0, 25, [.u8, .u8, .arr, .len], [.need 2 3, .byte 0 0 0, .size 1, .byte 1 1 0, .size 1, .loop 2 2 3]⟩,
  /- src/events/vscp_evt_protocol.c:751-781 `vscp_evt_protocol_sendReadWritePageResponse` -/
  ⟨"protocol_sendReadWritePageResponse", 0, 26, [.u8, .arr, .len], [.need 1 2, .byte 0 0 0, .size 1, .loop 2 1 2]⟩,
  /- src/events/vscp_evt_protocol.c:788-797 `vscp_evt_protocol_sendHighEndServerServiceProbe` -/
  ⟨"protocol_sendHighEndServerServiceProbe", 0, 27, [], []⟩,
  /- src/events/vscp_evt_protocol.c:809-844 `vscp_evt_protocol_sendHighEndServerServiceResponse` -/
  ⟨"protocol_sendHighEndServerServiceResponse", 0, 28, [.u16, .arr, .len, .u16], [.need 1 2, .byte 0 0 8, .byte 1 0 0, .size 2, .loop 2 1 2, .byte 6 3 8, .byte 7 3 0, .size 2]⟩,
  /- src/events/vscp_evt_protocol.c:855-885 `vscp_evt_protocol_sendIncrementRegister` -/
  ⟨"protocol_sendIncrementRegister", 0, 29, [.u8, .arr, .len], [.need 1 2, .byte 0 0 0, .size 1, .loop 1 1 2]⟩,
  /- src/events/vscp_evt_protocol.c:896-926 `vscp_evt_protocol_sendDecrementRegister` -/
  ⟨"protocol_sendDecrementRegister", 0, 30, [.u8, .arr, .len], [.need 1 2, .byte 0 0 0, .size 1, .loop 1 1 2]⟩,
  /- src/events/vscp_evt_protocol.c:935-948 `vscp_evt_protocol_sendWhoIsThere` -/
  ⟨"protocol_sendWhoIsThere", 0, 31, [.u8], [.byte 0 0 0, .size 1]⟩,
  /- src/events/vscp_evt_protocol.c:959-972 `vscp_evt_protocol_sendGetDecisionMatrixInfo` -/
  ⟨"protocol_sendGetDecisionMatrixInfo", 0, 33, [.u8], [.byte 0 0 0, .size 1]⟩,
  /- src/events/vscp_evt_protocol.c:983-1006 `vscp_evt_protocol_sendDecisionMatrixInfoResponse` -/
  ⟨"protocol_sendDecisionMatrixInfoResponse", 0, 34, [.u8, .u8, .opt16], [.byte 0 0 0, .size 1, .byte 1 1 0, .size 1, .opt 2 [(2, 8), (3, 0)] 2]⟩,
  /- src/events/vscp_evt_protocol.c:1015-1028 `vscp_evt_protocol_sendGetEmbeddedMdf` -/
  ⟨"protocol_sendGetEmbeddedMdf", 0, 35, [.u8], [.byte 0 0 0, .size 1]⟩,
  /- src/events/vscp_evt_protocol.c:1038-1055 `vscp_evt_protocol_sendEmbeddedMdfResponse` -/
  ⟨"protocol_sendEmbeddedMdfResponse", 0, 36, [.u16, .u8], [.byte 0 0 8, .byte 1 0 0, .size 2, .byte 2 1 0, .size 1]⟩,
  /- src/events/vscp_evt_protocol.c:1067-1093 `vscp_evt_protocol_sendExtendedPageReadRegister` -/
  ⟨"protocol_sendExtendedPageReadRegister", 0, 37, [.u8, .u16, .u8, .opt8], [.byte 0 0 0, .size 1, .byte 1 1 8, .byte 2 1 0, .size 2, .byte 3 2 0, .size 1, .opt 3 [(4, 0)] 1]⟩,
  /- src/events/vscp_evt_protocol.c:1106-1143 `vscp_evt_protocol_sendExtendedPageWriteRegister` -/
  ⟨"protocol_sendExtendedPageWriteRegister", 0, 38, [.u8, .u16, .u8, .arr, .len], [.need 3 4, .byte 0 0 0, .size 1, .byte 1 1 8, .byte 2 1 0, .size 2, .byte 3 2 0, .size 1, .loop 4 3 4]⟩,
  /- src/events/vscp_evt_protocol.c:1156-1193 `vscp_evt_protocol_sendExtendedPageReadWriteResponse` -/
  ⟨"protocol_sendExtendedPageReadWriteResponse", 0, 39, [.u8, .u16, .u8, .arr, .len], [.need 3 4, .byte 0 0 0, .size 1, .byte 1 1 8, .byte 2 1 0, .size 2, .byte 3 2 0, .size 1, .loop 4 3 4]⟩,
  /- src/events/vscp_evt_protocol.c:1200-1209 `vscp_evt_protocol_sendGetEventInterest` -/
  ⟨"protocol_sendGetEventInterest", 0, 40, [], []⟩,
  /- src/events/vscp_evt_protocol.c:1228-1303 `vscp_evt_protocol_sendGetEventInterestResponse` -/
  ⟨"protocol_sendGetEventInterestResponse", 0, 41, [.u8, .u16, .u8, .arr, .len, .u8, .arr, .len, .u8, .arr, .len], [.need 3 4, .need 6 7, .need 9 10, .byte 0 0 0, .size 1, .byte 1 1 8, .byte 2 1 0, .size 2, .byte 2 2 0, .size 1, .loop 3 3 4, .byte 4 5 0, .size 1, .loop 5 6 7, .byte 6 8 0, .size 1, .loop 7 9 10]⟩,
  /- src/events/vscp_evt_protocol.c:1310-1319 `vscp_evt_protocol_sendActivateNewImageAck` -/
  ⟨"protocol_sendActivateNewImageAck", 0, 48, [], []⟩,
  /- src/events/vscp_evt_protocol.c:1326-1335 `vscp_evt_protocol_sendActivateNewImageNack` -/
  ⟨"protocol_sendActivateNewImageNack", 0, 49, [], []⟩,
  /- src/events/vscp_evt_protocol.c:1342-1351 `vscp_evt_protocol_sendBlockDataTransferAck` -/
  ⟨"protocol_sendBlockDataTransferAck", 0, 50, [], []⟩,
  /- src/events/vscp_evt_protocol.c:1358-1367 `vscp_evt_protocol_sendBlockDataTransferNack` -/
  ⟨"protocol_sendBlockDataTransferNack", 0, 51, [], []⟩]

/-- src/events/vscp_evt_security.c: all send functions -/
def security : List Fn := [
  /- src/events/vscp_evt_security.c:79-88 `vscp_evt_security_sendGeneralEvent` -/
  ⟨"security_sendGeneralEvent", 2, 0, [], []⟩,
  /- src/events/vscp_evt_security.c:100-125 `vscp_evt_security_sendMotionDetect` -/
  ⟨"security_sendMotionDetect", 2, 1, [.u8, .u8, .u8, .opt8], [.byte 0 0 0, .size 1, .byte 1 1 0, .size 1, .byte 2 2 0, .size 1, .opt 3 [(3, 0)] 1]⟩,
  /- src/events/vscp_evt_security.c:136-155 `vscp_evt_security_sendGlassBreak` -/
  ⟨"security_sendGlassBreak", 2, 2, [.u8, .u8, .u8], [.byte 0 0 0, .size 1, .byte 1 1 0, .size 1, .byte 2 2 0, .size 1]⟩,
  /- src/events/vscp_evt_security.c:166-185 `vscp_evt_security_sendBeamBreak` -/
  ⟨"security_sendBeamBreak", 2, 3, [.u8, .u8, .u8], [.byte 0 0 0, .size 1, .byte 1 1 0, .size 1, .byte 2 2 0, .size 1]⟩,
  /- src/events/vscp_evt_security.c:196-215 `vscp_evt_security_sendSensorTamper` -/
  ⟨"security_sendSensorTamper", 2, 4, [.u8, .u8, .u8], [.byte 0 0 0, .size 1, .byte 1 1 0, .size 1, .byte 2 2 0, .size 1]⟩,
  /- src/events/vscp_evt_security.c:226-245 `vscp_evt_security_sendShockSensor` -/
  ⟨"security_sendShockSensor", 2, 5, [.u8, .u8, .u8], [.byte 0 0 0, .size 1, .byte 1 1 0, .size 1, .byte 2 2 0, .size 1]⟩,
  /- src/events/vscp_evt_security.c:256-275 `vscp_evt_security_sendSmokeSensor` -/
  ⟨"security_sendSmokeSensor", 2, 6, [.u8, .u8, .u8], [.byte 0 0 0, .size 1, .byte 1 1 0, .size 1, .byte 2 2 0, .size 1]⟩,
  /- src/events/vscp_evt_security.c:286-305 `vscp_evt_security_sendHeatSensor` -/
  ⟨"security_sendHeatSensor", 2, 7, [.u8, .u8, .u8], [.byte 0 0 0, .size 1, .byte 1 1 0, .size 1, .byte 2 2 0, .size 1]⟩,
  /- src/events/vscp_evt_security.c:316-335 `vscp_evt_security_sendPanicSwitch` -/
  ⟨"security_sendPanicSwitch", 2, 8, [.u8, .u8, .u8], [.byte 0 0 0, .size 1, .byte 1 1 0, .size 1, .byte 2 2 0, .size 1]⟩,
  /- src/events/vscp_evt_security.c:346-365 `vscp_evt_security_sendDoorContact` -/
  ⟨"security_sendDoorContact", 2, 9, [.u8, .u8, .u8], [.byte 0 0 0, .size 1, .byte 1 1 0, .size 1, .byte 2 2 0, .size 1]⟩,
  /- src/events/vscp_evt_security.c:376-395 `vscp_evt_security_sendWindowContact` -/
  ⟨"security_sendWindowContact", 2, 10, [.u8, .u8, .u8], [.byte 0 0 0, .size 1, .byte 1 1 0, .size 1, .byte 2 2 0, .size 1]⟩,
  /- src/events/vscp_evt_security.c:406-425 `vscp_evt_security_sendCoSensor` -/
  ⟨"security_sendCoSensor", 2, 11, [.u8, .u8, .u8], [.byte 0 0 0, .size 1, .byte 1 1 0, .size 1, .byte 2 2 0, .size 1]⟩,
  /- src/events/vscp_evt_security.c:436-455 `vscp_evt_security_sendFrostDetected` -/
  ⟨"security_sendFrostDetected", 2, 12, [.u8, .u8, .u8], [.byte 0 0 0, .size 1, .byte 1 1 0, .size 1, .byte 2 2 0, .size 1]⟩,
  /- src/events/vscp_evt_security.c:466-485 `vscp_evt_security_sendFlameDetected` -/
  ⟨"security_sendFlameDetected", 2, 13, [.u8, .u8, .u8], [.byte 0 0 0, .size 1, .byte 1 1 0, .size 1, .byte 2 2 0, .size 1]⟩,
  /- src/events/vscp_evt_security.c:496-515 `vscp_evt_security_sendOxygenLow` -/
  ⟨"security_sendOxygenLow", 2, 14, [.u8, .u8, .u8], [.byte 0 0 0, .size 1, .byte 1 1 0, .size 1, .byte 2 2 0, .size 1]⟩,
  /- src/events/vscp_evt_security.c:526-545 `vscp_evt_security_sendWeightDetected` -/
  ⟨"security_sendWeightDetected", 2, 15, [.u8, .u8, .u8], [.byte 0 0 0, .size 1, .byte 1 1 0, .size 1, .byte 2 2 0, .size 1]⟩,
  /- src/events/vscp_evt_security.c:556-575 `vscp_evt_security_sendWaterDetected` -/
  ⟨"security_sendWaterDetected", 2, 16, [.u8, .u8, .u8], [.byte 0 0 0, .size 1, .byte 1 1 0, .size 1, .byte 2 2 0, .size 1]⟩,
  /- src/events/vscp_evt_security.c:586-605 `vscp_evt_security_sendCondensationDetected` -/
  ⟨"security_sendCondensationDetected", 2, 17, [.u8, .u8, .u8], [.byte 0 0 0, .size 1, .byte 1 1 0, .size 1, .byte 2 2 0, .size 1]⟩,
  /- src/events/vscp_evt_security.c:616-635 `vscp_evt_security_sendNoiseSoundDetected` -/
  ⟨"security_sendNoiseSoundDetected", 2, 18, [.u8, .u8, .u8], [.byte 0 0 0, .size 1, .byte 1 1 0, .size 1, .byte 2 2 0, .size 1]⟩,
  /- src/events/vscp_evt_security.c:646-665 `vscp_evt_security_sendHarmfulSoundLevelsDetected` -/
  ⟨"security_sendHarmfulSoundLevelsDetected", 2, 19, [.u8, .u8, .u8], [.byte 0 0 0, .size 1, .byte 1 1 0, .size 1, .byte 2 2 0, .size 1]⟩,
  /- src/events/vscp_evt_security.c:676-695 `vscp_evt_security_sendTamperDetected` -/
  ⟨"security_sendTamperDetected", 2, 20, [.u8, .u8, .u8], [.byte 0 0 0, .size 1, .byte 1 1 0, .size 1, .byte 2 2 0, .size 1]⟩,
  /- src/events/vscp_evt_security.c:706-725 `vscp_evt_security_sendAuthenticated` -/
  ⟨"security_sendAuthenticated", 2, 21, [.u8, .u8, .u8], [.byte 0 0 0, .size 1, .byte 1 1 0, .size 1, .byte 2 2 0, .size 1]⟩,
  /- src/events/vscp_evt_security.c:736-755 `vscp_evt_security_sendUnauthenticated` -/
  ⟨"security_sendUnauthenticated", 2, 22, [.u8, .u8, .u8], [.byte 0 0 0, .size 1, .byte 1 1 0, .size 1, .byte 2 2 0, .size 1]⟩,
  /- src/events/vscp_evt_security.c:766-785 `vscp_evt_security_sendAuthorized` -/
  ⟨"security_sendAuthorized", 2, 23, [.u8, .u8, .u8], [.byte 0 0 0, .size 1, .byte 1 1 0, .size 1, .byte 2 2 0, .size 1]⟩,
  /- src/events/vscp_evt_security.c:796-815 `vscp_evt_security_sendUnauthorized` -/
  ⟨"security_sendUnauthorized", 2, 24, [.u8, .u8, .u8], [.byte 0 0 0, .size 1, .byte 1 1 0, .size 1, .byte 2 2 0, .size 1]⟩,
  /- src/events/vscp_evt_security.c:826-845 `vscp_evt_security_sendIdCheck` -/
  ⟨"security_sendIdCheck", 2, 25, [.u8, .u8, .u8], [.byte 0 0 0, .size 1, .byte 1 1 0, .size 1, .byte 2 2 0, .size 1]⟩,
  /- src/events/vscp_evt_security.c:856-875 `vscp_evt_security_sendValidPin` -/
  ⟨"security_sendValidPin", 2, 26, [.u8, .u8, .u8], [.byte 0 0 0, .size 1, .byte 1 1 0, .size 1, .byte 2 2 0, .size 1]⟩,
  /- src/events/vscp_evt_security.c:886-905 `vscp_evt_security_sendInvalidPin` -/
  ⟨"security_sendInvalidPin", 2, 27, [.u8, .u8, .u8], [.byte 0 0 0, .size 1, .byte 1 1 0, .size 1, .byte 2 2 0, .size 1]⟩,
  /- src/events/vscp_evt_security.c:916-935 `vscp_evt_security_sendPinWarning` -/
  ⟨"security_sendPinWarning", 2, 28, [.u8, .u8, .u8], [.byte 0 0 0, .size 1, .byte 1 1 0, .size 1, .byte 2 2 0, .size 1]⟩,
  /- src/events/vscp_evt_security.c:946-965 `vscp_evt_security_sendPinError` -/
  ⟨"security_sendPinError", 2, 29, [.u8, .u8, .u8], [.byte 0 0 0, .size 1, .byte 1 1 0, .size 1, .byte 2 2 0, .size 1]⟩,
  /- src/events/vscp_evt_security.c:976-995 `vscp_evt_security_sendValidPassword` -/
  ⟨"security_sendValidPassword", 2, 30, [.u8, .u8, .u8], [.byte 0 0 0, .size 1, .byte 1 1 0, .size 1, .byte 2 2 0, .size 1]⟩,
  /- src/events/vscp_evt_security.c:1006-1025 `vscp_evt_security_sendInvalidPassword` -/
  ⟨"security_sendInvalidPassword", 2, 31, [.u8, .u8, .u8], [.byte 0 0 0, .size 1, .byte 1 1 0, .size 1, .byte 2 2 0, .size 1]⟩,
  /- src/events/vscp_evt_security.c:1036-1055 `vscp_evt_security_sendPasswordWarning` -/
  ⟨"security_sendPasswordWarning", 2, 32, [.u8, .u8, .u8], [.byte 0 0 0, .size 1, .byte 1 1 0, .size 1, .byte 2 2 0, .size 1]⟩,
  /- src/events/vscp_evt_security.c:1066-1085 `vscp_evt_security_sendPasswordError` -/
  ⟨"security_sendPasswordError", 2, 33, [.u8, .u8, .u8], [.byte 0 0 0, .size 1, .byte 1 1 0, .size 1, .byte 2 2 0, .size 1]⟩,
  /- src/events/vscp_evt_security.c:1096-1115 `vscp_evt_security_sendGas` -/
  ⟨"security_sendGas", 2, 34, [.u8, .u8, .u8], [.byte 0 0 0, .size 1, .byte 1 1 0, .size 1, .byte 2 2 0, .size 1]⟩,
  /- src/events/vscp_evt_security.c:1126-1145 `vscp_evt_security_sendInMotion` -/
  ⟨"security_sendInMotion", 2, 35, [.u8, .u8, .u8], [.byte 0 0 0, .size 1, .byte 1 1 0, .size 1, .byte 2 2 0, .size 1]⟩,
  /- src/events/vscp_evt_security.c:1156-1175 `vscp_evt_security_sendNotInMotion` -/
  ⟨"security_sendNotInMotion", 2, 36, [.u8, .u8, .u8], [.byte 0 0 0, .size 1, .byte 1 1 0, .size 1, .byte 2 2 0, .size 1]⟩,
  /- src/events/vscp_evt_security.c:1186-1205 `vscp_evt_security_sendVibration` -/
  ⟨"security_sendVibration", 2, 37, [.u8, .u8, .u8], [.byte 0 0 0, .size 1, .byte 1 1 0, .size 1, .byte 2 2 0, .size 1]⟩]

/-- src/events/vscp_evt_setvaluezone.c: all send functions -/
def setvaluezone : List Fn := [
  /- src/events/vscp_evt_setvaluezone.c:79-88 `vscp_evt_setvaluezone_sendGeneralEvent` -/
  ⟨"setvaluezone_sendGeneralEvent", 85, 0, [], []⟩,
  /- src/events/vscp_evt_setvaluezone.c:102-141 `vscp_evt_setvaluezone_sendCount` -/
  ⟨"setvaluezone_sendCount", 85, 1, [.u8, .u8, .u8, .u8, .arr, .len], [.need 4 5, .byte 0 0 0, .size 1, .byte 1 1 0, .size 1, .byte 2 2 0, .size 1, .byte 3 3 0, .size 1, .loop 4 4 5]⟩,
  /- src/events/vscp_evt_setvaluezone.c:155-194 `vscp_evt_setvaluezone_sendLengthDistance` -/
  ⟨"setvaluezone_sendLengthDistance", 85, 2, [.u8, .u8, .u8, .u8, .arr, .len], [.need 4 5, .byte 0 0 0, .size 1, .byte 1 1 0, .size 1, .byte 2 2 0, .size 1, .byte 3 3 0, .size 1, .loop 4 4 5]⟩,
  /- src/events/vscp_evt_setvaluezone.c:208-247 `vscp_evt_setvaluezone_sendMass` -/
  ⟨"setvaluezone_sendMass", 85, 3, [.u8, .u8, .u8, .u8, .arr, .len], [.need 4 5, .byte 0 0 0, .size 1, .byte 1 1 0, .size 1, .byte 2 2 0, .size 1, .byte 3 3 0, .size 1, .loop 4 4 5]⟩,
  /- src/events/vscp_evt_setvaluezone.c:261-300 `vscp_evt_setvaluezone_sendTime` -/
  ⟨"setvaluezone_sendTime", 85, 4, [.u8, .u8, .u8, .u8, .arr, .len], [.need 4 5, .byte 0 0 0, .size 1, .byte 1 1 0, .size 1, .byte 2 2 0, .size 1, .byte 3 3 0, .size 1, .loop 4 4 5]⟩,
  /- src/events/vscp_evt_setvaluezone.c:314-353 `vscp_evt_setvaluezone_sendElectricCurrent` -/
  ⟨"setvaluezone_sendElectricCurrent", 85, 5, [.u8, .u8, .u8, .u8, .arr, .len], [.need 4 5, .byte 0 0 0, .size 1, .byte 1 1 0, .size 1, .byte 2 2 0, .size 1, .byte 3 3 0, .size 1, .loop 4 4 5]⟩,
  /- src/events/vscp_evt_setvaluezone.c:367-406 `vscp_evt_setvaluezone_sendTemperature` -/
  ⟨"setvaluezone_sendTemperature", 85, 6, [.u8, .u8, .u8, .u8, .arr, .len], [.need 4 5, .byte 0 0 0, .size 1, .byte 1 1 0, .size 1, .byte 2 2 0, .size 1, .byte 3 3 0, .size 1, .loop 4 4 5]⟩,
  /- src/events/vscp_evt_setvaluezone.c:420-459 `vscp_evt_setvaluezone_sendAmountOfSubstance` -/
  ⟨"setvaluezone_sendAmountOfSubstance", 85, 7, [.u8, .u8, .u8, .u8, .arr, .len], [.need 4 5, .byte 0 0 0, .size 1, .byte 1 1 0, .size 1, .byte 2 2 0, .size 1, .byte 3 3 0, .size 1, .loop 4 4 5]⟩,
  /- src/events/vscp_evt_setvaluezone.c:473-512 `vscp_evt_setvaluezone_sendLuminousIntensityIntensityOfLight` -/
  ⟨"setvaluezone_sendLuminousIntensityIntensityOfLight", 85, 8, [.u8, .u8, .u8, .u8, .arr, .len], [.need 4 5, .byte 0 0 0, .size 1, .byte 1 1 0, .size 1, .byte 2 2 0, .size 1, .byte 3 3 0, .size 1, .loop 4 4 5]⟩,
  /- src/events/vscp_evt_setvaluezone.c:526-565 `vscp_evt_setvaluezone_sendFrequency` -/
  ⟨"setvaluezone_sendFrequency", 85, 9, [.u8, .u8, .u8, .u8, .arr, .len], [.need 4 5, .byte 0 0 0, .size 1, .byte 1 1 0, .size 1, .byte 2 2 0, .size 1, .byte 3 3 0, .size 1, .loop 4 4 5]⟩,
  /- src/events/vscp_evt_setvaluezone.c:579-618 `vscp_evt_setvaluezone_sendRadioactivityAndOtherRandomEvents` -/
  ⟨"setvaluezone_sendRadioactivityAndOtherRandomEvents", 85, 10, [.u8, .u8, .u8, .u8, .arr, .len], [.need 4 5, .byte 0 0 0, .size 1, .byte 1 1 0, .size 1, .byte 2 2 0, .size 1, .byte 3 3 0, .size 1, .loop 4 4 5]⟩,
  /- src/events/vscp_evt_setvaluezone.c:632-671 `vscp_evt_setvaluezone_sendForce` -/
  ⟨"setvaluezone_sendForce", 85, 11, [.u8, .u8, .u8, .u8, .arr, .len], [.need 4 5, .byte 0 0 0, .size 1, .byte 1 1 0, .size 1, .byte 2 2 0, .size 1, .byte 3 3 0, .size 1, .loop 4 4 5]⟩,
  /- src/events/vscp_evt_setvaluezone.c:685-724 `vscp_evt_setvaluezone_sendPressure` -/
  ⟨"setvaluezone_sendPressure", 85, 12, [.u8, .u8, .u8, .u8, .arr, .len], [.need 4 5, .byte 0 0 0, .size 1, .byte 1 1 0, .size 1, .byte 2 2 0, .size 1, .byte 3 3 0, .size 1, .loop 4 4 5]⟩,
  /- src/events/vscp_evt_setvaluezone.c:738-777 `vscp_evt_setvaluezone_sendEnergy` -/
  ⟨"setvaluezone_sendEnergy", 85, 13, [.u8, .u8, .u8, .u8, .arr, .len], [.need 4 5, .byte 0 0 0, .size 1, .byte 1 1 0, .size 1, .byte 2 2 0, .size 1, .byte 3 3 0, .size 1, .loop 4 4 5]⟩,
  /- src/events/vscp_evt_setvaluezone.c:791-830 `vscp_evt_setvaluezone_sendPower` -/
  ⟨"setvaluezone_sendPower", 85, 14, [.u8, .u8, .u8, .u8, .arr, .len], [.need 4 5, .byte 0 0 0, .size 1, .byte 1 1 0, .size 1, .byte 2 2 0, .size 1, .byte 3 3 0, .size 1, .loop 4 4 5]⟩,
  /- src/events/vscp_evt_setvaluezone.c:844-883 `vscp_evt_setvaluezone_sendElectricalCharge` -/
  ⟨"setvaluezone_sendElectricalCharge", 85, 15, [.u8, .u8, .u8, .u8, .arr, .len], [.need 4 5, .byte 0 0 0, .size 1, .byte 1 1 0, .size 1, .byte 2 2 0, .size 1, .byte 3 3 0, .size 1, .loop 4 4 5]⟩,
  /- src/events/vscp_evt_setvaluezone.c:897-936 `vscp_evt_setvaluezone_sendElectricalPotentialVoltage` -/
  ⟨"setvaluezone_sendElectricalPotentialVoltage", 85, 16, [.u8, .u8, .u8, .u8, .arr, .len], [.need 4 5, .byte 0 0 0, .size 1, .byte 1 1 0, .size 1, .byte 2 2 0, .size 1, .byte 3 3 0, .size 1, .loop 4 4 5]⟩,
  /- src/events/vscp_evt_setvaluezone.c:950-989 `vscp_evt_setvaluezone_sendElectricalCapacitance` -/
  ⟨"setvaluezone_sendElectricalCapacitance", 85, 17, [.u8, .u8, .u8, .u8, .arr, .len], [.need 4 5, .byte 0 0 0, .size 1, .byte 1 1 0, .size 1, .byte 2 2 0, .size 1, .byte 3 3 0, .size 1, .loop 4 4 5]⟩,
  /- src/events/vscp_evt_setvaluezone.c:1003-1042 `vscp_evt_setvaluezone_sendElectricalResistance` -/
  ⟨"setvaluezone_sendElectricalResistance", 85, 18, [.u8, .u8, .u8, .u8, .arr, .len], [.need 4 5, .byte 0 0 0, .size 1, .byte 1 1 0, .size 1, .byte 2 2 0, .size 1, .byte 3 3 0, .size 1, .loop 4 4 5]⟩,
  /- src/events/vscp_evt_setvaluezone.c:1056-1095 `vscp_evt_setvaluezone_sendElectricalConductance` -/
  ⟨"setvaluezone_sendElectricalConductance", 85, 19, [.u8, .u8, .u8, .u8, .arr, .len], [.need 4 5, .byte 0 0 0, .size 1, .byte 1 1 0, .size 1, .byte 2 2 0, .size 1, .byte 3 3 0, .size 1, .loop 4 4 5]⟩,
  /- src/events/vscp_evt_setvaluezone.c:1109-1148 `vscp_evt_setvaluezone_sendMagneticFieldStrength` -/
  ⟨"setvaluezone_sendMagneticFieldStrength", 85, 20, [.u8, .u8, .u8, .u8, .arr, .len], [.need 4 5, .byte 0 0 0, .size 1, .byte 1 1 0, .size 1, .byte 2 2 0, .size 1, .byte 3 3 0, .size 1, .loop 4 4 5]⟩,
  /- src/events/vscp_evt_setvaluezone.c:1162-1201 `vscp_evt_setvaluezone_sendMagneticFlux` -/
  ⟨"setvaluezone_sendMagneticFlux", 85, 21, [.u8, .u8, .u8, .u8, .arr, .len], [.need 4 5, .byte 0 0 0, .size 1, .byte 1 1 0, .size 1, .byte 2 2 0, .size 1, .byte 3 3 0, .size 1, .loop 4 4 5]⟩,
  /- src/events/vscp_evt_setvaluezone.c:1215-1254 `vscp_evt_setvaluezone_sendMagneticFluxDensity` -/
  ⟨"setvaluezone_sendMagneticFluxDensity", 85, 22, [.u8, .u8, .u8, .u8, .arr, .len], [.need 4 5, .byte 0 0 0, .size 1, .byte 1 1 0, .size 1, .byte 2 2 0, .size 1, .byte 3 3 0, .size 1, .loop 4 4 5]⟩,
  /- src/events/vscp_evt_setvaluezone.c:1268-1307 `vscp_evt_setvaluezone_sendInductance` -/
  ⟨"setvaluezone_sendInductance", 85, 23, [.u8, .u8, .u8, .u8, .arr, .len], [.need 4 5, .byte 0 0 0, .size 1, .byte 1 1 0, .size 1, .byte 2 2 0, .size 1, .byte 3 3 0, .size 1, .loop 4 4 5]⟩,
  /- src/events/vscp_evt_setvaluezone.c:1321-1360 `vscp_evt_setvaluezone_sendLuminousFlux` -/
  ⟨"setvaluezone_sendLuminousFlux", 85, 24, [.u8, .u8, .u8, .u8, .arr, .len], [.need 4 5, .byte 0 0 0, .size 1, .byte 1 1 0, .size 1, .byte 2 2 0, .size 1, .byte 3 3 0, .size 1, .loop 4 4 5]⟩,
  /- src/events/vscp_evt_setvaluezone.c:1374-1413 `vscp_evt_setvaluezone_sendIlluminance` -/
  ⟨"setvaluezone_sendIlluminance", 85, 25, [.u8, .u8, .u8, .u8, .arr, .len], [.need 4 5, .byte 0 0 0, .size 1, .byte 1 1 0, .size 1, .byte 2 2 0, .size 1, .byte 3 3 0, .size 1, .loop 4 4 5]⟩,
  /- src/events/vscp_evt_setvaluezone.c:1427-1466 `vscp_evt_setvaluezone_sendRadiationDose` -/
  ⟨"setvaluezone_sendRadiationDose", 85, 26, [.u8, .u8, .u8, .u8, .arr, .len], [.need 4 5, .byte 0 0 0, .size 1, .byte 1 1 0, .size 1, .byte 2 2 0, .size 1, .byte 3 3 0, .size 1, .loop 4 4 5]⟩,
  /- src/events/vscp_evt_setvaluezone.c:1480-1519 `vscp_evt_setvaluezone_sendCatalyticActivity` -/
  ⟨"setvaluezone_sendCatalyticActivity", 85, 27, [.u8, .u8, .u8, .u8, .arr, .len], [.need 4 5, .byte 0 0 0, .size 1, .byte 1 1 0, .size 1, .byte 2 2 0, .size 1, .byte 3 3 0, .size 1, .loop 4 4 5]⟩,
  /- src/events/vscp_evt_setvaluezone.c:1533-1572 `vscp_evt_setvaluezone_sendVolume` -/
  ⟨"setvaluezone_sendVolume", 85, 28, [.u8, .u8, .u8, .u8, .arr, .len], [.need 4 5, .byte 0 0 0, .size 1, .byte 1 1 0, .size 1, .byte 2 2 0, .size 1, .byte 3 3 0, .size 1, .loop 4 4 5]⟩,
  /- src/events/vscp_evt_setvaluezone.c:1586-1625 `vscp_evt_setvaluezone_sendSoundIntensity` -/
  ⟨"setvaluezone_sendSoundIntensity", 85, 29, [.u8, .u8, .u8, .u8, .arr, .len], [.need 4 5, .byte 0 0 0, .size 1, .byte 1 1 0, .size 1, .byte 2 2 0, .size 1, .byte 3 3 0, .size 1, .loop 4 4 5]⟩,
  /- src/events/vscp_evt_setvaluezone.c:1639-1678 `vscp_evt_setvaluezone_sendAngle` -/
  ⟨"setvaluezone_sendAngle", 85, 30, [.u8, .u8, .u8, .u8, .arr, .len], [.need 4 5, .byte 0 0 0, .size 1, .byte 1 1 0, .size 1, .byte 2 2 0, .size 1, .byte 3 3 0, .size 1, .loop 4 4 5]⟩,
  /- src/events/vscp_evt_setvaluezone.c:1692-1731 `vscp_evt_setvaluezone_sendPositionWgs84` -/
  ⟨"setvaluezone_sendPositionWgs84", 85, 31, [.u8, .u8, .u8, .u8, .arr, .len], [.need 4 5, .byte 0 0 0, .size 1, .byte 1 1 0, .size 1, .byte 2 2 0, .size 1, .byte 3 3 0, .size 1, .loop 4 4 5]⟩,
  /- src/events/vscp_evt_setvaluezone.c:1745-1784 `vscp_evt_setvaluezone_sendSpeed` -/
  ⟨"setvaluezone_sendSpeed", 85, 32, [.u8, .u8, .u8, .u8, .arr, .len], [.need 4 5, .byte 0 0 0, .size 1, .byte 1 1 0, .size 1, .byte 2 2 0, .size 1, .byte 3 3 0, .size 1, .loop 4 4 5]⟩,
  /- src/events/vscp_evt_setvaluezone.c:1798-1837 `vscp_evt_setvaluezone_sendAcceleration` -/
  ⟨"setvaluezone_sendAcceleration", 85, 33, [.u8, .u8, .u8, .u8, .arr, .len], [.need 4 5, .byte 0 0 0, .size 1, .byte 1 1 0, .size 1, .byte 2 2 0, .size 1, .byte 3 3 0, .size 1, .loop 4 4 5]⟩,
  /- src/events/vscp_evt_setvaluezone.c:1851-1890 `vscp_evt_setvaluezone_sendTension` -/
  ⟨"setvaluezone_sendTension", 85, 34, [.u8, .u8, .u8, .u8, .arr, .len], [.need 4 5, .byte 0 0 0, .size 1, .byte 1 1 0, .size 1, .byte 2 2 0, .size 1, .byte 3 3 0, .size 1, .loop 4 4 5]⟩,
  /- src/events/vscp_evt_setvaluezone.c:1904-1943 `vscp_evt_setvaluezone_sendDampMoistHygrometerReading` -/
  ⟨"setvaluezone_sendDampMoistHygrometerReading", 85, 35, [.u8, .u8, .u8, .u8, .arr, .len], [.need 4 5, .byte 0 0 0, .size 1, .byte 1 1 0, .size 1, .byte 2 2 0, .size 1, .byte 3 3 0, .size 1, .loop 4 4 5]⟩,
  /- src/events/vscp_evt_setvaluezone.c:1957-1996 `vscp_evt_setvaluezone_sendFlow` -/
  ⟨"setvaluezone_sendFlow", 85, 36, [.u8, .u8, .u8, .u8, .arr, .len], [.need 4 5, .byte 0 0 0, .size 1, .byte 1 1 0, .size 1, .byte 2 2 0, .size 1, .byte 3 3 0, .size 1, .loop 4 4 5]⟩,
  /- src/events/vscp_evt_setvaluezone.c:2010-2049 `vscp_evt_setvaluezone_sendThermalResistance` -/
  ⟨"setvaluezone_sendThermalResistance", 85, 37, [.u8, .u8, .u8, .u8, .arr, .len], [.need 4 5, .byte 0 0 0, .size 1, .byte 1 1 0, .size 1, .byte 2 2 0, .size 1, .byte 3 3 0, .size 1, .loop 4 4 5]⟩,
  /- src/events/vscp_evt_setvaluezone.c:2063-2102 `vscp_evt_setvaluezone_sendRefractiveOpticalPower` -/
  ⟨"setvaluezone_sendRefractiveOpticalPower", 85, 38, [.u8, .u8, .u8, .u8, .arr, .len], [.need 4 5, .byte 0 0 0, .size 1, .byte 1 1 0, .size 1, .byte 2 2 0, .size 1, .byte 3 3 0, .size 1, .loop 4 4 5]⟩,
  /- src/events/vscp_evt_setvaluezone.c:2116-2155 `vscp_evt_setvaluezone_sendDynamicViscosity` -/
  ⟨"setvaluezone_sendDynamicViscosity", 85, 39, [.u8, .u8, .u8, .u8, .arr, .len], [.need 4 5, .byte 0 0 0, .size 1, .byte 1 1 0, .size 1, .byte 2 2 0, .size 1, .byte 3 3 0, .size 1, .loop 4 4 5]⟩,
  /- src/events/vscp_evt_setvaluezone.c:2169-2208 `vscp_evt_setvaluezone_sendSoundImpedance` -/
  ⟨"setvaluezone_sendSoundImpedance", 85, 40, [.u8, .u8, .u8, .u8, .arr, .len], [.need 4 5, .byte 0 0 0, .size 1, .byte 1 1 0, .size 1, .byte 2 2 0, .size 1, .byte 3 3 0, .size 1, .loop 4 4 5]⟩,
  /- src/events/vscp_evt_setvaluezone.c:2222-2261 `vscp_evt_setvaluezone_sendSoundResistance` -/
  ⟨"setvaluezone_sendSoundResistance", 85, 41, [.u8, .u8, .u8, .u8, .arr, .len], [.need 4 5, .byte 0 0 0, .size 1, .byte 1 1 0, .size 1, .byte 2 2 0, .size 1, .byte 3 3 0, .size 1, .loop 4 4 5]⟩,
  /- src/events/vscp_evt_setvaluezone.c:2275-2314 `vscp_evt_setvaluezone_sendElectricElastance` -/
  ⟨"setvaluezone_sendElectricElastance", 85, 42, [.u8, .u8, .u8, .u8, .arr, .len], [.need 4 5, .byte 0 0 0, .size 1, .byte 1 1 0, .size 1, .byte 2 2 0, .size 1, .byte 3 3 0, .size 1, .loop 4 4 5]⟩,
  /- src/events/vscp_evt_setvaluezone.c:2328-2367 `vscp_evt_setvaluezone_sendLuminousEnergy` -/
  ⟨"setvaluezone_sendLuminousEnergy", 85, 43, [.u8, .u8, .u8, .u8, .arr, .len], [.need 4 5, .byte 0 0 0, .size 1, .byte 1 1 0, .size 1, .byte 2 2 0, .size 1, .byte 3 3 0, .size 1, .loop 4 4 5]⟩,
  /- src/events/vscp_evt_setvaluezone.c:2381-2420 `vscp_evt_setvaluezone_sendLuminance` -/
  ⟨"setvaluezone_sendLuminance", 85, 44, [.u8, .u8, .u8, .u8, .arr, .len], [.need 4 5, .byte 0 0 0, .size 1, .byte 1 1 0, .size 1, .byte 2 2 0, .size 1, .byte 3 3 0, .size 1, .loop 4 4 5]⟩,
  /- src/events/vscp_evt_setvaluezone.c:2434-2473 `vscp_evt_setvaluezone_sendChemicalConcentration` -/
  ⟨"setvaluezone_sendChemicalConcentration", 85, 45, [.u8, .u8, .u8, .u8, .arr, .len], [.need 4 5, .byte 0 0 0, .size 1, .byte 1 1 0, .size 1, .byte 2 2 0, .size 1, .byte 3 3 0, .size 1, .loop 4 4 5]⟩,
  /- src/events/vscp_evt_setvaluezone.c:2489-2528 `vscp_evt_setvaluezone_sendDoseEquivalent` -/
  ⟨"setvaluezone_sendDoseEquivalent", 85, 47, [.u8, .u8, .u8, .u8, .arr, .len], [.need 4 5, .byte 0 0 0, .size 1, .byte 1 1 0, .size 1, .byte 2 2 0, .size 1, .byte 3 3 0, .size 1, .loop 4 4 5]⟩,
  /- src/events/vscp_evt_setvaluezone.c:2544-2583 `vscp_evt_setvaluezone_sendDewPoint` -/
  ⟨"setvaluezone_sendDewPoint", 85, 49, [.u8, .u8, .u8, .u8, .arr, .len], [.need 4 5, .byte 0 0 0, .size 1, .byte 1 1 0, .size 1, .byte 2 2 0, .size 1, .byte 3 3 0, .size 1, .loop 4 4 5]⟩,
  /- src/events/vscp_evt_setvaluezone.c:2597-2636 `vscp_evt_setvaluezone_sendRelativeLevel` -/
  ⟨"setvaluezone_sendRelativeLevel", 85, 50, [.u8, .u8, .u8, .u8, .arr, .len], [.need 4 5, .byte 0 0 0, .size 1, .byte 1 1 0, .size 1, .byte 2 2 0, .size 1, .byte 3 3 0, .size 1, .loop 4 4 5]⟩,
  /- src/events/vscp_evt_setvaluezone.c:2650-2689 `vscp_evt_setvaluezone_sendAltitude` -/
  ⟨"setvaluezone_sendAltitude", 85, 51, [.u8, .u8, .u8, .u8, .arr, .len], [.need 4 5, .byte 0 0 0, .size 1, .byte 1 1 0, .size 1, .byte 2 2 0, .size 1, .byte 3 3 0, .size 1, .loop 4 4 5]⟩,
  /- src/events/vscp_evt_setvaluezone.c:2703-2742 `vscp_evt_setvaluezone_sendArea` -/
  ⟨"setvaluezone_sendArea", 85, 52, [.u8, .u8, .u8, .u8, .arr, .len], [.need 4 5, .byte 0 0 0, .size 1, .byte 1 1 0, .size 1, .byte 2 2 0, .size 1, .byte 3 3 0, .size 1, .loop 4 4 5]⟩,
  /- src/events/vscp_evt_setvaluezone.c:2756-2795 `vscp_evt_setvaluezone_sendRadiantIntensity` -/
  ⟨"setvaluezone_sendRadiantIntensity", 85, 53, [.u8, .u8, .u8, .u8, .arr, .len], [.need 4 5, .byte 0 0 0, .size 1, .byte 1 1 0, .size 1, .byte 2 2 0, .size 1, .byte 3 3 0, .size 1, .loop 4 4 5]⟩,
  /- src/events/vscp_evt_setvaluezone.c:2809-2848 `vscp_evt_setvaluezone_sendRadiance` -/
  ⟨"setvaluezone_sendRadiance", 85, 54, [.u8, .u8, .u8, .u8, .arr, .len], [.need 4 5, .byte 0 0 0, .size 1, .byte 1 1 0, .size 1, .byte 2 2 0, .size 1, .byte 3 3 0, .size 1, .loop 4 4 5]⟩,
  /- src/events/vscp_evt_setvaluezone.c:2862-2901 `vscp_evt_setvaluezone_sendIrradianceExitanceRadiosity` -/
  ⟨"setvaluezone_sendIrradianceExitanceRadiosity", 85, 55, [.u8, .u8, .u8, .u8, .arr, .len], [.need 4 5, .byte 0 0 0, .size 1, .byte 1 1 0, .size 1, .byte 2 2 0, .size 1, .byte 3 3 0, .size 1, .loop 4 4 5]⟩,
  /- src/events/vscp_evt_setvaluezone.c:2915-2954 `vscp_evt_setvaluezone_sendSpectralRadiance` -/
  ⟨"setvaluezone_sendSpectralRadiance", 85, 56, [.u8, .u8, .u8, .u8, .arr, .len], [.need 4 5, .byte 0 0 0, .size 1, .byte 1 1 0, .size 1, .byte 2 2 0, .size 1, .byte 3 3 0, .size 1, .loop 4 4 5]⟩,
  /- src/events/vscp_evt_setvaluezone.c:2968-3007 `vscp_evt_setvaluezone_sendSpectralIrradiance` -/
  ⟨"setvaluezone_sendSpectralIrradiance", 85, 57, [.u8, .u8, .u8, .u8, .arr, .len], [.need 4 5, .byte 0 0 0, .size 1, .byte 1 1 0, .size 1, .byte 2 2 0, .size 1, .byte 3 3 0, .size 1, .loop 4 4 5]⟩,
  /- src/events/vscp_evt_setvaluezone.c:3021-3060 `vscp_evt_setvaluezone_sendSoundPressureAcousticPressure` -/
  ⟨"setvaluezone_sendSoundPressureAcousticPressure", 85, 58, [.u8, .u8, .u8, .u8, .arr, .len], [.need 4 5, .byte 0 0 0, .size 1, .byte 1 1 0, .size 1, .byte 2 2 0, .size 1, .byte 3 3 0, .size 1, .loop 4 4 5]⟩,
  /- src/events/vscp_evt_setvaluezone.c:3074-3113 `vscp_evt_setvaluezone_sendSoundEnergyDensity` -/
  ⟨"setvaluezone_sendSoundEnergyDensity", 85, 59, [.u8, .u8, .u8, .u8, .arr, .len], [.need 4 5, .byte 0 0 0, .size 1, .byte 1 1 0, .size 1, .byte 2 2 0, .size 1, .byte 3 3 0, .size 1, .loop 4 4 5]⟩,
  /- src/events/vscp_evt_setvaluezone.c:3127-3166 `vscp_evt_setvaluezone_sendSoundLevel` -/
  ⟨"setvaluezone_sendSoundLevel", 85, 60, [.u8, .u8, .u8, .u8, .arr, .len], [.need 4 5, .byte 0 0 0, .size 1, .byte 1 1 0, .size 1, .byte 2 2 0, .size 1, .byte 3 3 0, .size 1, .loop 4 4 5]⟩]

/-- src/events/vscp_evt_weather.c: all send functions -/
def weather : List Fn := [
  /- src/events/vscp_evt_weather.c:79-88 `vscp_evt_weather_sendGeneralEvent` -/
  ⟨"weather_sendGeneralEvent", 90, 0, [], []⟩,
  /- src/events/vscp_evt_weather.c:99-118 `vscp_evt_weather_sendSeasonWinter` -/
  ⟨"weather_sendSeasonWinter", 90, 1, [.u8, .u8, .u8], [.byte 0 0 0, .size 1, .byte 1 1 0, .size 1, .byte 2 2 0, .size 1]⟩,
  /- src/events/vscp_evt_weather.c:129-148 `vscp_evt_weather_sendSeasonSpring` -/
  ⟨"weather_sendSeasonSpring", 90, 2, [.u8, .u8, .u8], [.byte 0 0 0, .size 1, .byte 1 1 0, .size 1, .byte 2 2 0, .size 1]⟩,
  /- src/events/vscp_evt_weather.c:159-178 `vscp_evt_weather_sendSeasonSummer` -/
  ⟨"weather_sendSeasonSummer", 90, 3, [.u8, .u8, .u8], [.byte 0 0 0, .size 1, .byte 1 1 0, .size 1, .byte 2 2 0, .size 1]⟩,
  /- src/events/vscp_evt_weather.c:189-208 `vscp_evt_weather_sendAutumnSummer` -/
  ⟨"weather_sendAutumnSummer", 90, 4, [.u8, .u8, .u8], [.byte 0 0 0, .size 1, .byte 1 1 0, .size 1, .byte 2 2 0, .size 1]⟩,
  /- src/events/vscp_evt_weather.c:219-238 `vscp_evt_weather_sendNoWind` -/
  ⟨"weather_sendNoWind", 90, 5, [.u8, .u8, .u8], [.byte 0 0 0, .size 1, .byte 1 1 0, .size 1, .byte 2 2 0, .size 1]⟩,
  /- src/events/vscp_evt_weather.c:249-268 `vscp_evt_weather_sendLowWind` -/
  ⟨"weather_sendLowWind", 90, 6, [.u8, .u8, .u8], [.byte 0 0 0, .size 1, .byte 1 1 0, .size 1, .byte 2 2 0, .size 1]⟩,
  /- src/events/vscp_evt_weather.c:279-298 `vscp_evt_weather_sendMediumWind` -/
  ⟨"weather_sendMediumWind", 90, 7, [.u8, .u8, .u8], [.byte 0 0 0, .size 1, .byte 1 1 0, .size 1, .byte 2 2 0, .size 1]⟩,
  /- src/events/vscp_evt_weather.c:309-328 `vscp_evt_weather_sendHighWind` -/
  ⟨"weather_sendHighWind", 90, 8, [.u8, .u8, .u8], [.byte 0 0 0, .size 1, .byte 1 1 0, .size 1, .byte 2 2 0, .size 1]⟩,
  /- src/events/vscp_evt_weather.c:339-358 `vscp_evt_weather_sendVeryHighWind` -/
  ⟨"weather_sendVeryHighWind", 90, 9, [.u8, .u8, .u8], [.byte 0 0 0, .size 1, .byte 1 1 0, .size 1, .byte 2 2 0, .size 1]⟩,
  /- src/events/vscp_evt_weather.c:369-388 `vscp_evt_weather_sendAirFoggy` -/
  ⟨"weather_sendAirFoggy", 90, 10, [.u8, .u8, .u8], [.byte 0 0 0, .size 1, .byte 1 1 0, .size 1, .byte 2 2 0, .size 1]⟩,
  /- src/events/vscp_evt_weather.c:399-418 `vscp_evt_weather_sendAirFreezing` -/
  ⟨"weather_sendAirFreezing", 90, 11, [.u8, .u8, .u8], [.byte 0 0 0, .size 1, .byte 1 1 0, .size 1, .byte 2 2 0, .size 1]⟩,
  /- src/events/vscp_evt_weather.c:429-448 `vscp_evt_weather_sendAirVeryCold` -/
  ⟨"weather_sendAirVeryCold", 90, 12, [.u8, .u8, .u8], [.byte 0 0 0, .size 1, .byte 1 1 0, .size 1, .byte 2 2 0, .size 1]⟩,
  /- src/events/vscp_evt_weather.c:459-478 `vscp_evt_weather_sendAirCold` -/
  ⟨"weather_sendAirCold", 90, 13, [.u8, .u8, .u8], [.byte 0 0 0, .size 1, .byte 1 1 0, .size 1, .byte 2 2 0, .size 1]⟩,
  /- src/events/vscp_evt_weather.c:489-508 `vscp_evt_weather_sendAirNormal` -/
  ⟨"weather_sendAirNormal", 90, 14, [.u8, .u8, .u8], [.byte 0 0 0, .size 1, .byte 1 1 0, .size 1, .byte 2 2 0, .size 1]⟩,
  /- src/events/vscp_evt_weather.c:519-538 `vscp_evt_weather_sendAirHot` -/
  ⟨"weather_sendAirHot", 90, 15, [.u8, .u8, .u8], [.byte 0 0 0, .size 1, .byte 1 1 0, .size 1, .byte 2 2 0, .size 1]⟩,
  /- src/events/vscp_evt_weather.c:549-568 `vscp_evt_weather_sendAirVeryHot` -/
  ⟨"weather_sendAirVeryHot", 90, 16, [.u8, .u8, .u8], [.byte 0 0 0, .size 1, .byte 1 1 0, .size 1, .byte 2 2 0, .size 1]⟩,
  /- src/events/vscp_evt_weather.c:579-598 `vscp_evt_weather_sendPollutionLow` -/
  ⟨"weather_sendPollutionLow", 90, 17, [.u8, .u8, .u8], [.byte 0 0 0, .size 1, .byte 1 1 0, .size 1, .byte 2 2 0, .size 1]⟩,
  /- src/events/vscp_evt_weather.c:609-628 `vscp_evt_weather_sendPollutionMedium` -/
  ⟨"weather_sendPollutionMedium", 90, 18, [.u8, .u8, .u8], [.byte 0 0 0, .size 1, .byte 1 1 0, .size 1, .byte 2 2 0, .size 1]⟩,
  /- src/events/vscp_evt_weather.c:639-658 `vscp_evt_weather_sendPollutionHigh` -/
  ⟨"weather_sendPollutionHigh", 90, 19, [.u8, .u8, .u8], [.byte 0 0 0, .size 1, .byte 1 1 0, .size 1, .byte 2 2 0, .size 1]⟩,
  /- src/events/vscp_evt_weather.c:669-688 `vscp_evt_weather_sendAirHumid` -/
  ⟨"weather_sendAirHumid", 90, 20, [.u8, .u8, .u8], [.byte 0 0 0, .size 1, .byte 1 1 0, .size 1, .byte 2 2 0, .size 1]⟩,
  /- src/events/vscp_evt_weather.c:699-718 `vscp_evt_weather_sendAirDry` -/
  ⟨"weather_sendAirDry", 90, 21, [.u8, .u8, .u8], [.byte 0 0 0, .size 1, .byte 1 1 0, .size 1, .byte 2 2 0, .size 1]⟩,
  /- src/events/vscp_evt_weather.c:729-748 `vscp_evt_weather_sendSoilHumid` -/
  ⟨"weather_sendSoilHumid", 90, 22, [.u8, .u8, .u8], [.byte 0 0 0, .size 1, .byte 1 1 0, .size 1, .byte 2 2 0, .size 1]⟩,
  /- src/events/vscp_evt_weather.c:759-778 `vscp_evt_weather_sendSoilDry` -/
  ⟨"weather_sendSoilDry", 90, 23, [.u8, .u8, .u8], [.byte 0 0 0, .size 1, .byte 1 1 0, .size 1, .byte 2 2 0, .size 1]⟩,
  /- src/events/vscp_evt_weather.c:789-808 `vscp_evt_weather_sendRainNone` -/
  ⟨"weather_sendRainNone", 90, 24, [.u8, .u8, .u8], [.byte 0 0 0, .size 1, .byte 1 1 0, .size 1, .byte 2 2 0, .size 1]⟩,
  /- src/events/vscp_evt_weather.c:819-838 `vscp_evt_weather_sendRainLight` -/
  ⟨"weather_sendRainLight", 90, 25, [.u8, .u8, .u8], [.byte 0 0 0, .size 1, .byte 1 1 0, .size 1, .byte 2 2 0, .size 1]⟩,
  /- src/events/vscp_evt_weather.c:849-868 `vscp_evt_weather_sendRainHeavy` -/
  ⟨"weather_sendRainHeavy", 90, 26, [.u8, .u8, .u8], [.byte 0 0 0, .size 1, .byte 1 1 0, .size 1, .byte 2 2 0, .size 1]⟩,
  /- src/events/vscp_evt_weather.c:879-898 `vscp_evt_weather_sendRainVeryHeavy` -/
  ⟨"weather_sendRainVeryHeavy", 90, 27, [.u8, .u8, .u8], [.byte 0 0 0, .size 1, .byte 1 1 0, .size 1, .byte 2 2 0, .size 1]⟩,
  /- src/events/vscp_evt_weather.c:909-928 `vscp_evt_weather_sendSunNone` -/
  ⟨"weather_sendSunNone", 90, 28, [.u8, .u8, .u8], [.byte 0 0 0, .size 1, .byte 1 1 0, .size 1, .byte 2 2 0, .size 1]⟩,
  /- src/events/vscp_evt_weather.c:939-958 `vscp_evt_weather_sendSunLight` -/
  ⟨"weather_sendSunLight", 90, 29, [.u8, .u8, .u8], [.byte 0 0 0, .size 1, .byte 1 1 0, .size 1, .byte 2 2 0, .size 1]⟩,
  /- src/events/vscp_evt_weather.c:969-988 `vscp_evt_weather_sendSunHeavy` -/
  ⟨"weather_sendSunHeavy", 90, 30, [.u8, .u8, .u8], [.byte 0 0 0, .size 1, .byte 1 1 0, .size 1, .byte 2 2 0, .size 1]⟩,
  /- src/events/vscp_evt_weather.c:999-1018 `vscp_evt_weather_sendSnowNone` -/
  ⟨"weather_sendSnowNone", 90, 31, [.u8, .u8, .u8], [.byte 0 0 0, .size 1, .byte 1 1 0, .size 1, .byte 2 2 0, .size 1]⟩,
  /- src/events/vscp_evt_weather.c:1029-1048 `vscp_evt_weather_sendSnowLight` -/
  ⟨"weather_sendSnowLight", 90, 32, [.u8, .u8, .u8], [.byte 0 0 0, .size 1, .byte 1 1 0, .size 1, .byte 2 2 0, .size 1]⟩,
  /- src/events/vscp_evt_weather.c:1059-1078 `vscp_evt_weather_sendSnowHeavy` -/
  ⟨"weather_sendSnowHeavy", 90, 33, [.u8, .u8, .u8], [.byte 0 0 0, .size 1, .byte 1 1 0, .size 1, .byte 2 2 0, .size 1]⟩,
  /- src/events/vscp_evt_weather.c:1089-1108 `vscp_evt_weather_sendDewPoint` -/
  ⟨"weather_sendDewPoint", 90, 34, [.u8, .u8, .u8], [.byte 0 0 0, .size 1, .byte 1 1 0, .size 1, .byte 2 2 0, .size 1]⟩,
  /- src/events/vscp_evt_weather.c:1119-1138 `vscp_evt_weather_sendStorm` -/
  ⟨"weather_sendStorm", 90, 35, [.u8, .u8, .u8], [.byte 0 0 0, .size 1, .byte 1 1 0, .size 1, .byte 2 2 0, .size 1]⟩,
  /- src/events/vscp_evt_weather.c:1149-1168 `vscp_evt_weather_sendFlood` -/
  ⟨"weather_sendFlood", 90, 36, [.u8, .u8, .u8], [.byte 0 0 0, .size 1, .byte 1 1 0, .size 1, .byte 2 2 0, .size 1]⟩,
  /- src/events/vscp_evt_weather.c:1179-1198 `vscp_evt_weather_sendEarthquake` -/
  ⟨"weather_sendEarthquake", 90, 37, [.u8, .u8, .u8], [.byte 0 0 0, .size 1, .byte 1 1 0, .size 1, .byte 2 2 0, .size 1]⟩,
  /- src/events/vscp_evt_weather.c:1209-1228 `vscp_evt_weather_sendNuclearDisaster` -/
  ⟨"weather_sendNuclearDisaster", 90, 38, [.u8, .u8, .u8], [.byte 0 0 0, .size 1, .byte 1 1 0, .size 1, .byte 2 2 0, .size 1]⟩,
  /- src/events/vscp_evt_weather.c:1239-1258 `vscp_evt_weather_sendFire` -/
  ⟨"weather_sendFire", 90, 39, [.u8, .u8, .u8], [.byte 0 0 0, .size 1, .byte 1 1 0, .size 1, .byte 2 2 0, .size 1]⟩,
  /- src/events/vscp_evt_weather.c:1269-1288 `vscp_evt_weather_sendLightning` -/
  ⟨"weather_sendLightning", 90, 40, [.u8, .u8, .u8], [.byte 0 0 0, .size 1, .byte 1 1 0, .size 1, .byte 2 2 0, .size 1]⟩,
  /- src/events/vscp_evt_weather.c:1299-1318 `vscp_evt_weather_sendUvRadiationLow` -/
  ⟨"weather_sendUvRadiationLow", 90, 41, [.u8, .u8, .u8], [.byte 0 0 0, .size 1, .byte 1 1 0, .size 1, .byte 2 2 0, .size 1]⟩,
  /- src/events/vscp_evt_weather.c:1329-1348 `vscp_evt_weather_sendUvRadiationMedium` -/
  ⟨"weather_sendUvRadiationMedium", 90, 42, [.u8, .u8, .u8], [.byte 0 0 0, .size 1, .byte 1 1 0, .size 1, .byte 2 2 0, .size 1]⟩,
  /- src/events/vscp_evt_weather.c:1359-1378 `vscp_evt_weather_sendUvRadiationNormal` -/
  ⟨"weather_sendUvRadiationNormal", 90, 43, [.u8, .u8, .u8], [.byte 0 0 0, .size 1, .byte 1 1 0, .size 1, .byte 2 2 0, .size 1]⟩,
  /- src/events/vscp_evt_weather.c:1389-1408 `vscp_evt_weather_sendUvRadiationHigh` -/
  ⟨"weather_sendUvRadiationHigh", 90, 44, [.u8, .u8, .u8], [.byte 0 0 0, .size 1, .byte 1 1 0, .size 1, .byte 2 2 0, .size 1]⟩,
  /- src/events/vscp_evt_weather.c:1419-1438 `vscp_evt_weather_sendUvRadiationVeryHigh` -/
  ⟨"weather_sendUvRadiationVeryHigh", 90, 45, [.u8, .u8, .u8], [.byte 0 0 0, .size 1, .byte 1 1 0, .size 1, .byte 2 2 0, .size 1]⟩,
  /- src/events/vscp_evt_weather.c:1449-1468 `vscp_evt_weather_sendWarningLevel1` -/
  ⟨"weather_sendWarningLevel1", 90, 46, [.u8, .u8, .u8], [.byte 0 0 0, .size 1, .byte 1 1 0, .size 1, .byte 2 2 0, .size 1]⟩,
  /- src/events/vscp_evt_weather.c:1479-1498 `vscp_evt_weather_sendWarningLevel2` -/
  ⟨"weather_sendWarningLevel2", 90, 47, [.u8, .u8, .u8], [.byte 0 0 0, .size 1, .byte 1 1 0, .size 1, .byte 2 2 0, .size 1]⟩,
  /- src/events/vscp_evt_weather.c:1509-1528 `vscp_evt_weather_sendWarningLevel3` -/
  ⟨"weather_sendWarningLevel3", 90, 48, [.u8, .u8, .u8], [.byte 0 0 0, .size 1, .byte 1 1 0, .size 1, .byte 2 2 0, .size 1]⟩,
  /- src/events/vscp_evt_weather.c:1539-1558 `vscp_evt_weather_sendWarningLevel4` -/
  ⟨"weather_sendWarningLevel4", 90, 49, [.u8, .u8, .u8], [.byte 0 0 0, .size 1, .byte 1 1 0, .size 1, .byte 2 2 0, .size 1]⟩,
  /- src/events/vscp_evt_weather.c:1569-1588 `vscp_evt_weather_sendWarningLevel5` -/
  ⟨"weather_sendWarningLevel5", 90, 50, [.u8, .u8, .u8], [.byte 0 0 0, .size 1, .byte 1 1 0, .size 1, .byte 2 2 0, .size 1]⟩,
  /- src/events/vscp_evt_weather.c:1599-1618 `vscp_evt_weather_sendArmageddon` -/
  ⟨"weather_sendArmageddon", 90, 51, [.u8, .u8, .u8], [.byte 0 0 0, .size 1, .byte 1 1 0, .size 1, .byte 2 2 0, .size 1]⟩,
  /- src/events/vscp_evt_weather.c:1630-1652 `vscp_evt_weather_sendUvIndex` -/
  ⟨"weather_sendUvIndex", 90, 52, [.u8, .u8, .u8, .u8], [.byte 0 0 0, .size 1, .byte 1 1 0, .size 1, .byte 2 2 0, .size 1, .byte 3 3 0, .size 1]⟩]

/-- src/events/vscp_evt_weather_forecast.c: all send functions -/
def weatherForecast : List Fn := [
  /- src/events/vscp_evt_weather_forecast.c:79-88 `vscp_evt_weather_forecast_sendGeneralEvent` -/
  ⟨"weather_forecast_sendGeneralEvent", 95, 0, [], []⟩,
  /- src/events/vscp_evt_weather_forecast.c:99-118 `vscp_evt_weather_forecast_sendSeasonWinter` -/
  ⟨"weather_forecast_sendSeasonWinter", 95, 1, [.u8, .u8, .u8], [.byte 0 0 0, .size 1, .byte 1 1 0, .size 1, .byte 2 2 0, .size 1]⟩,
  /- src/events/vscp_evt_weather_forecast.c:129-148 `vscp_evt_weather_forecast_sendSeasonSpring` -/
  ⟨"weather_forecast_sendSeasonSpring", 95, 2, [.u8, .u8, .u8], [.byte 0 0 0, .size 1, .byte 1 1 0, .size 1, .byte 2 2 0, .size 1]⟩,
  /- src/events/vscp_evt_weather_forecast.c:159-178 `vscp_evt_weather_forecast_sendSeasonSummer` -/
  ⟨"weather_forecast_sendSeasonSummer", 95, 3, [.u8, .u8, .u8], [.byte 0 0 0, .size 1, .byte 1 1 0, .size 1, .byte 2 2 0, .size 1]⟩,
  /- src/events/vscp_evt_weather_forecast.c:189-208 `vscp_evt_weather_forecast_sendAutumnSummer` -/
  ⟨"weather_forecast_sendAutumnSummer", 95, 4, [.u8, .u8, .u8], [.byte 0 0 0, .size 1, .byte 1 1 0, .size 1, .byte 2 2 0, .size 1]⟩,
  /- src/events/vscp_evt_weather_forecast.c:219-238 `vscp_evt_weather_forecast_sendNoWind` -/
  ⟨"weather_forecast_sendNoWind", 95, 5, [.u8, .u8, .u8], [.byte 0 0 0, .size 1, .byte 1 1 0, .size 1, .byte 2 2 0, .size 1]⟩,
  /- src/events/vscp_evt_weather_forecast.c:249-268 `vscp_evt_weather_forecast_sendLowWind` -/
  ⟨"weather_forecast_sendLowWind", 95, 6, [.u8, .u8, .u8], [.byte 0 0 0, .size 1, .byte 1 1 0, .size 1, .byte 2 2 0, .size 1]⟩,
  /- src/events/vscp_evt_weather_forecast.c:279-298 `vscp_evt_weather_forecast_sendMediumWind` -/
  ⟨"weather_forecast_sendMediumWind", 95, 7, [.u8, .u8, .u8], [.byte 0 0 0, .size 1, .byte 1 1 0, .size 1, .byte 2 2 0, .size 1]⟩,
  /- src/events/vscp_evt_weather_forecast.c:309-328 `vscp_evt_weather_forecast_sendHighWind` -/
  ⟨"weather_forecast_sendHighWind", 95, 8, [.u8, .u8, .u8], [.byte 0 0 0, .size 1, .byte 1 1 0, .size 1, .byte 2 2 0, .size 1]⟩,
  /- src/events/vscp_evt_weather_forecast.c:339-358 `vscp_evt_weather_forecast_sendVeryHighWind` -/
  ⟨"weather_forecast_sendVeryHighWind", 95, 9, [.u8, .u8, .u8], [.byte 0 0 0, .size 1, .byte 1 1 0, .size 1, .byte 2 2 0, .size 1]⟩,
  /- src/events/vscp_evt_weather_forecast.c:369-388 `vscp_evt_weather_forecast_sendAirFoggy` -/
  ⟨"weather_forecast_sendAirFoggy", 95, 10, [.u8, .u8, .u8], [.byte 0 0 0, .size 1, .byte 1 1 0, .size 1, .byte 2 2 0, .size 1]⟩,
  /- src/events/vscp_evt_weather_forecast.c:399-418 `vscp_evt_weather_forecast_sendAirFreezing` -/
  ⟨"weather_forecast_sendAirFreezing", 95, 11, [.u8, .u8, .u8], [.byte 0 0 0, .size 1, .byte 1 1 0, .size 1, .byte 2 2 0, .size 1]⟩,
  /- src/events/vscp_evt_weather_forecast.c:429-448 `vscp_evt_weather_forecast_sendAirVeryCold` -/
  ⟨"weather_forecast_sendAirVeryCold", 95, 12, [.u8, .u8, .u8], [.byte 0 0 0, .size 1, .byte 1 1 0, .size 1, .byte 2 2 0, .size 1]⟩,
  /- src/events/vscp_evt_weather_forecast.c:459-478 `vscp_evt_weather_forecast_sendAirCold` -/
  ⟨"weather_forecast_sendAirCold", 95, 13, [.u8, .u8, .u8], [.byte 0 0 0, .size 1, .byte 1 1 0, .size 1, .byte 2 2 0, .size 1]⟩,
  /- src/events/vscp_evt_weather_forecast.c:489-508 `vscp_evt_weather_forecast_sendAirNormal` -/
  ⟨"weather_forecast_sendAirNormal", 95, 14, [.u8, .u8, .u8], [.byte 0 0 0, .size 1, .byte 1 1 0, .size 1, .byte 2 2 0, .size 1]⟩,
  /- src/events/vscp_evt_weather_forecast.c:519-538 `vscp_evt_weather_forecast_sendAirHot` -/
  ⟨"weather_forecast_sendAirHot", 95, 15, [.u8, .u8, .u8], [.byte 0 0 0, .size 1, .byte 1 1 0, .size 1, .byte 2 2 0, .size 1]⟩,
  /- src/events/vscp_evt_weather_forecast.c:549-568 `vscp_evt_weather_forecast_sendAirVeryHot` -/
  ⟨"weather_forecast_sendAirVeryHot", 95, 16, [.u8, .u8, .u8], [.byte 0 0 0, .size 1, .byte 1 1 0, .size 1, .byte 2 2 0, .size 1]⟩,
  /- src/events/vscp_evt_weather_forecast.c:579-598 `vscp_evt_weather_forecast_sendPollutionLow` -/
  ⟨"weather_forecast_sendPollutionLow", 95, 17, [.u8, .u8, .u8], [.byte 0 0 0, .size 1, .byte 1 1 0, .size 1, .byte 2 2 0, .size 1]⟩,
  /- src/events/vscp_evt_weather_forecast.c:609-628 `vscp_evt_weather_forecast_sendPollutionMedium` -/
  ⟨"weather_forecast_sendPollutionMedium", 95, 18, [.u8, .u8, .u8], [.byte 0 0 0, .size 1, .byte 1 1 0, .size 1, .byte 2 2 0, .size 1]⟩,
  /- src/events/vscp_evt_weather_forecast.c:639-658 `vscp_evt_weather_forecast_sendPollutionHigh` -/
  ⟨"weather_forecast_sendPollutionHigh", 95, 19, [.u8, .u8, .u8], [.byte 0 0 0, .size 1, .byte 1 1 0, .size 1, .byte 2 2 0, .size 1]⟩,
  /- src/events/vscp_evt_weather_forecast.c:669-688 `vscp_evt_weather_forecast_sendAirHumid` -/
  ⟨"weather_forecast_sendAirHumid", 95, 20, [.u8, .u8, .u8], [.byte 0 0 0, .size 1, .byte 1 1 0, .size 1, .byte 2 2 0, .size 1]⟩,
  /- src/events/vscp_evt_weather_forecast.c:699-718 `vscp_evt_weather_forecast_sendAirDry` -/
  ⟨"weather_forecast_sendAirDry", 95, 21, [.u8, .u8, .u8], [.byte 0 0 0, .size 1, .byte 1 1 0, .size 1, .byte 2 2 0, .size 1]⟩,
  /- src/events/vscp_evt_weather_forecast.c:729-748 `vscp_evt_weather_forecast_sendSoilHumid` -/
  ⟨"weather_forecast_sendSoilHumid", 95, 22, [.u8, .u8, .u8], [.byte 0 0 0, .size 1, .byte 1 1 0, .size 1, .byte 2 2 0, .size 1]⟩,
  /- src/events/vscp_evt_weather_forecast.c:759-778 `vscp_evt_weather_forecast_sendSoilDry` -/
  ⟨"weather_forecast_sendSoilDry", 95, 23, [.u8, .u8, .u8], [.byte 0 0 0, .size 1, .byte 1 1 0, .size 1, .byte 2 2 0, .size 1]⟩,
  /- src/events/vscp_evt_weather_forecast.c:789-808 `vscp_evt_weather_forecast_sendRainNone` -/
  ⟨"weather_forecast_sendRainNone", 95, 24, [.u8, .u8, .u8], [.byte 0 0 0, .size 1, .byte 1 1 0, .size 1, .byte 2 2 0, .size 1]⟩,
  /- src/events/vscp_evt_weather_forecast.c:819-838 `vscp_evt_weather_forecast_sendRainLight` -/
  ⟨"weather_forecast_sendRainLight", 95, 25, [.u8, .u8, .u8], [.byte 0 0 0, .size 1, .byte 1 1 0, .size 1, .byte 2 2 0, .size 1]⟩,
  /- src/events/vscp_evt_weather_forecast.c:849-868 `vscp_evt_weather_forecast_sendRainHeavy` -/
  ⟨"weather_forecast_sendRainHeavy", 95, 26, [.u8, .u8, .u8], [.byte 0 0 0, .size 1, .byte 1 1 0, .size 1, .byte 2 2 0, .size 1]⟩,
  /- src/events/vscp_evt_weather_forecast.c:879-898 `vscp_evt_weather_forecast_sendRainVeryHeavy` -/
  ⟨"weather_forecast_sendRainVeryHeavy", 95, 27, [.u8, .u8, .u8], [.byte 0 0 0, .size 1, .byte 1 1 0, .size 1, .byte 2 2 0, .size 1]⟩,
  /- src/events/vscp_evt_weather_forecast.c:909-928 `vscp_evt_weather_forecast_sendSunNone` -/
  ⟨"weather_forecast_sendSunNone", 95, 28, [.u8, .u8, .u8], [.byte 0 0 0, .size 1, .byte 1 1 0, .size 1, .byte 2 2 0, .size 1]⟩,
  /- src/events/vscp_evt_weather_forecast.c:939-958 `vscp_evt_weather_forecast_sendSunLight` -/
  ⟨"weather_forecast_sendSunLight", 95, 29, [.u8, .u8, .u8], [.byte 0 0 0, .size 1, .byte 1 1 0, .size 1, .byte 2 2 0, .size 1]⟩,
  /- src/events/vscp_evt_weather_forecast.c:969-988 `vscp_evt_weather_forecast_sendSunHeavy` -/
  ⟨"weather_forecast_sendSunHeavy", 95, 30, [.u8, .u8, .u8], [.byte 0 0 0, .size 1, .byte 1 1 0, .size 1, .byte 2 2 0, .size 1]⟩,
  /- src/events/vscp_evt_weather_forecast.c:999-1018 `vscp_evt_weather_forecast_sendSnowNone` -/
  ⟨"weather_forecast_sendSnowNone", 95, 31, [.u8, .u8, .u8], [.byte 0 0 0, .size 1, .byte 1 1 0, .size 1, .byte 2 2 0, .size 1]⟩,
  /- src/events/vscp_evt_weather_forecast.c:1029-1048 `vscp_evt_weather_forecast_sendSnowLight` -/
  ⟨"weather_forecast_sendSnowLight", 95, 32, [.u8, .u8, .u8], [.byte 0 0 0, .size 1, .byte 1 1 0, .size 1, .byte 2 2 0, .size 1]⟩,
  /- src/events/vscp_evt_weather_forecast.c:1059-1078 `vscp_evt_weather_forecast_sendSnowHeavy` -/
  ⟨"weather_forecast_sendSnowHeavy", 95, 33, [.u8, .u8, .u8], [.byte 0 0 0, .size 1, .byte 1 1 0, .size 1, .byte 2 2 0, .size 1]⟩,
  /- src/events/vscp_evt_weather_forecast.c:1089-1108 `vscp_evt_weather_forecast_sendDewPoint` -/
  ⟨"weather_forecast_sendDewPoint", 95, 34, [.u8, .u8, .u8], [.byte 0 0 0, .size 1, .byte 1 1 0, .size 1, .byte 2 2 0, .size 1]⟩,
  /- src/events/vscp_evt_weather_forecast.c:1119-1138 `vscp_evt_weather_forecast_sendStorm` -/
  ⟨"weather_forecast_sendStorm", 95, 35, [.u8, .u8, .u8], [.byte 0 0 0, .size 1, .byte 1 1 0, .size 1, .byte 2 2 0, .size 1]⟩,
  /- src/events/vscp_evt_weather_forecast.c:1149-1168 `vscp_evt_weather_forecast_sendFlood` -/
  ⟨"weather_forecast_sendFlood", 95, 36, [.u8, .u8, .u8], [.byte 0 0 0, .size 1, .byte 1 1 0, .size 1, .byte 2 2 0, .size 1]⟩,
  /- src/events/vscp_evt_weather_forecast.c:1179-1198 `vscp_evt_weather_forecast_sendEarthquake` -/
  ⟨"weather_forecast_sendEarthquake", 95, 37, [.u8, .u8, .u8], [.byte 0 0 0, .size 1, .byte 1 1 0, .size 1, .byte 2 2 0, .size 1]⟩,
  /- src/events/vscp_evt_weather_forecast.c:1209-1228 `vscp_evt_weather_forecast_sendNuclearDisaster` -/
  ⟨"weather_forecast_sendNuclearDisaster", 95, 38, [.u8, .u8, .u8], [.byte 0 0 0, .size 1, .byte 1 1 0, .size 1, .byte 2 2 0, .size 1]⟩,
  /- src/events/vscp_evt_weather_forecast.c:1239-1258 `vscp_evt_weather_forecast_sendFire` -/
  ⟨"weather_forecast_sendFire", 95, 39, [.u8, .u8, .u8], [.byte 0 0 0, .size 1, .byte 1 1 0, .size 1, .byte 2 2 0, .size 1]⟩,
  /- src/events/vscp_evt_weather_forecast.c:1269-1288 `vscp_evt_weather_forecast_sendLightning` -/
  ⟨"weather_forecast_sendLightning", 95, 40, [.u8, .u8, .u8], [.byte 0 0 0, .size 1, .byte 1 1 0, .size 1, .byte 2 2 0, .size 1]⟩,
  /- src/events/vscp_evt_weather_forecast.c:1299-1318 `vscp_evt_weather_forecast_sendUvRadiationLow` -/
  ⟨"weather_forecast_sendUvRadiationLow", 95, 41, [.u8, .u8, .u8], [.byte 0 0 0, .size 1, .byte 1 1 0, .size 1, .byte 2 2 0, .size 1]⟩,
  /- src/events/vscp_evt_weather_forecast.c:1329-1348 `vscp_evt_weather_forecast_sendUvRadiationMedium` -/
  ⟨"weather_forecast_sendUvRadiationMedium", 95, 42, [.u8, .u8, .u8], [.byte 0 0 0, .size 1, .byte 1 1 0, .size 1, .byte 2 2 0, .size 1]⟩,
  /- src/events/vscp_evt_weather_forecast.c:1359-1378 `vscp_evt_weather_forecast_sendUvRadiationNormal` -/
  ⟨"weather_forecast_sendUvRadiationNormal", 95, 43, [.u8, .u8, .u8], [.byte 0 0 0, .size 1, .byte 1 1 0, .size 1, .byte 2 2 0, .size 1]⟩,
  /- src/events/vscp_evt_weather_forecast.c:1389-1408 `vscp_evt_weather_forecast_sendUvRadiationHigh` -/
  ⟨"weather_forecast_sendUvRadiationHigh", 95, 44, [.u8, .u8, .u8], [.byte 0 0 0, .size 1, .byte 1 1 0, .size 1, .byte 2 2 0, .size 1]⟩,
  /- src/events/vscp_evt_weather_forecast.c:1419-1438 `vscp_evt_weather_forecast_sendUvRadiationVeryHigh` -/
  ⟨"weather_forecast_sendUvRadiationVeryHigh", 95, 45, [.u8, .u8, .u8], [.byte 0 0 0, .size 1, .byte 1 1 0, .size 1, .byte 2 2 0, .size 1]⟩,
  /- src/events/vscp_evt_weather_forecast.c:1449-1468 `vscp_evt_weather_forecast_sendWarningLevel1` -/
  ⟨"weather_forecast_sendWarningLevel1", 95, 46, [.u8, .u8, .u8], [.byte 0 0 0, .size 1, .byte 1 1 0, .size 1, .byte 2 2 0, .size 1]⟩,
  /- src/events/vscp_evt_weather_forecast.c:1479-1498 `vscp_evt_weather_forecast_sendWarningLevel2` -/
  ⟨"weather_forecast_sendWarningLevel2", 95, 47, [.u8, .u8, .u8], [.byte 0 0 0, .size 1, .byte 1 1 0, .size 1, .byte 2 2 0, .size 1]⟩,
  /- src/events/vscp_evt_weather_forecast.c:1509-1528 `vscp_evt_weather_forecast_sendWarningLevel3` -/
  ⟨"weather_forecast_sendWarningLevel3", 95, 48, [.u8, .u8, .u8], [.byte 0 0 0, .size 1, .byte 1 1 0, .size 1, .byte 2 2 0, .size 1]⟩,
  /- src/events/vscp_evt_weather_forecast.c:1539-1558 `vscp_evt_weather_forecast_sendWarningLevel4` -/
  ⟨"weather_forecast_sendWarningLevel4", 95, 49, [.u8, .u8, .u8], [.byte 0 0 0, .size 1, .byte 1 1 0, .size 1, .byte 2 2 0, .size 1]⟩,
  /- src/events/vscp_evt_weather_forecast.c:1569-1588 `vscp_evt_weather_forecast_sendWarningLevel5` -/
  ⟨"weather_forecast_sendWarningLevel5", 95, 50, [.u8, .u8, .u8], [.byte 0 0 0, .size 1, .byte 1 1 0, .size 1, .byte 2 2 0, .size 1]⟩,
  /- src/events/vscp_evt_weather_forecast.c:1599-1618 `vscp_evt_weather_forecast_sendArmageddon` -/
  ⟨"weather_forecast_sendArmageddon", 95, 51, [.u8, .u8, .u8], [.byte 0 0 0, .size 1, .byte 1 1 0, .size 1, .byte 2 2 0, .size 1]⟩,
  /- src/events/vscp_evt_weather_forecast.c:1630-1652 `vscp_evt_weather_forecast_sendUvIndex` -/
  ⟨"weather_forecast_sendUvIndex", 95, 52, [.u8, .u8, .u8, .u8], [.byte 0 0 0, .size 1, .byte 1 1 0, .size 1, .byte 2 2 0, .size 1, .byte 3 3 0, .size 1]⟩]

/-- src/events/vscp_evt_wireless.c: all send functions -/
def wireless : List Fn := [
  /- src/events/vscp_evt_wireless.c:79-88 `vscp_evt_wireless_sendGeneralEvent` -/
  ⟨"wireless_sendGeneralEvent", 212, 0, [], []⟩,
  /- src/events/vscp_evt_wireless.c:97-113 `vscp_evt_wireless_sendGsmCell` -/
  ⟨"wireless_sendGsmCell", 212, 1, [.u32], [.byte 0 0 24, .byte 1 0 16, .byte 2 0 8, .byte 3 0 0, .size 4]⟩]

/-- src/events/*.c: the modules in alphabetical order -/
def modules : List (String × List Fn) := [
  ("alarm", alarm),
  ("aol", aol),
  ("configuration", configuration),
  ("control", control),
  ("data", data),
  ("diagnostic", diagnostic),
  ("display", display),
  ("error", error),
  ("gnss", gnss),
  ("information", information),
  ("ir", ir),
  ("log", log),
  ("measurement", measurement),
  ("measurement32", measurement32),
  ("measurement64", measurement64),
  ("measurezone", measurezone),
  ("multimedia", multimedia),
  ("phone", phone),
  ("protocol", protocol),
  ("security", security),
  ("setvaluezone", setvaluezone),
  ("weather", weather),
  ("weather_forecast", weatherForecast),
  ("wireless", wireless)]

end Vscp.Events.Table
