import Verif.Model.Basic
/-
Model of /repo/src/ping.rs.
-/
namespace Mqtt

/-- src/ping.rs:8-11 `PingReq::write`. -/
def PingReq.write : M Nat := do
  putBytes [0xC0, 0x00]
  pure 2

/-- src/ping.rs:18-21 `PingResp::write`. -/
def PingResp.write : M Nat := do
  putBytes [0xD0, 0x00]
  pure 2

end Mqtt
