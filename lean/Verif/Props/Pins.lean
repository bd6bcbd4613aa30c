import Verif.Model.Message
import Verif.Model.Rpc
import Verif.Model.Construct
import Verif.Spec.Methods
import Verif.Spec.Time

/-!
# The constants that statements of other properties name

Many specifications speak of AMQP_STATUS_TIMEOUT, of the octet that ends a frame, or of basic.deliver by the name the model gives them.  Here is
what these names stand for.
-/

namespace Rmq

/-- C16: the octet that ends every frame, and the protocol header. -/
theorem C16_constants : FRAME_END = 0xCE ∧ protocolHeaderBytes = [65, 77, 81, 80, 0, 0, 9, 1] := ⟨rfl, rfl⟩

/-- C12: the methods that specifications name are those of the protocol. -/
theorem C12_named :
    [CONNECTION_START, CONNECTION_START_OK, CONNECTION_TUNE, CONNECTION_TUNE_OK, CONNECTION_OPEN, CONNECTION_OPEN_OK, CONNECTION_CLOSE,
      CHANNEL_CLOSE, BASIC_PUBLISH, BASIC_DELIVER, BASIC_ACK, BASIC_REJECT, BASIC_NACK].map methodName =
    ["AMQP_CONNECTION_START_METHOD", "AMQP_CONNECTION_START_OK_METHOD", "AMQP_CONNECTION_TUNE_METHOD", "AMQP_CONNECTION_TUNE_OK_METHOD",
      "AMQP_CONNECTION_OPEN_METHOD", "AMQP_CONNECTION_OPEN_OK_METHOD", "AMQP_CONNECTION_CLOSE_METHOD", "AMQP_CHANNEL_CLOSE_METHOD",
      "AMQP_BASIC_PUBLISH_METHOD", "AMQP_BASIC_DELIVER_METHOD", "AMQP_BASIC_ACK_METHOD", "AMQP_BASIC_REJECT_METHOD",
      "AMQP_BASIC_NACK_METHOD"].map some ∧
    [CONNECTION_START, CONNECTION_START_OK, CONNECTION_TUNE, CONNECTION_TUNE_OK, CONNECTION_OPEN, CONNECTION_OPEN_OK, CONNECTION_CLOSE,
      CHANNEL_CLOSE, BASIC_PUBLISH, BASIC_DELIVER, BASIC_ACK, BASIC_REJECT, BASIC_NACK].map (fun id => (id.toNat / 2 ^ 16, id.toNat % 2 ^ 16)) =
    [(10, 10), (10, 11), (10, 30), (10, 31), (10, 40), (10, 41), (10, 50), (20, 40), (60, 40), (60, 60), (60, 80), (60, 90), (60, 120)] ∧
    BASIC_CLASS = 60 := by decide +kernel

/-- C53: the statuses that specifications name have the numbers of amqp.h, and the messages that go with them. -/
theorem C53_named :
    [St.OK, St.NO_MEMORY, St.BAD_AMQP_DATA, St.UNKNOWN_CLASS, St.UNKNOWN_METHOD, St.HOSTNAME_RESOLUTION_FAILED, St.INCOMPATIBLE_AMQP_VERSION,
      St.CONNECTION_CLOSED, St.BAD_URL, St.SOCKET_ERROR, St.INVALID_PARAMETER, St.TABLE_TOO_BIG, St.WRONG_METHOD, St.TIMEOUT, St.TIMER_FAILURE,
      St.HEARTBEAT_TIMEOUT, St.UNEXPECTED_STATE, St.SOCKET_CLOSED, St.SOCKET_INUSE, St.BROKER_UNSUPPORTED_SASL_METHOD, St.UNSUPPORTED] =
    (List.range 21).map (fun n : Nat => -(n : Int)) ∧
    [St.TCP_ERROR, St.TCP_SOCKETLIB_INIT_ERROR] = [-0x100, -0x101] ∧
    [St.SSL_ERROR, St.SSL_HOSTNAME_VERIFY_FAILED, St.SSL_PEER_VERIFY_FAILED, St.SSL_CONNECTION_FAILED, St.SSL_SET_ENGINE_FAILED,
      St.SSL_UNIMPLEMENTED] = [-0x200, -0x201, -0x202, -0x203, -0x204, -0x205] ∧
    [St.PRIVATE_NEED_READ, St.PRIVATE_NEED_WRITE] = [-0x1301, -0x1302] ∧
    errorString2 St.TIMEOUT = some "request timed out" ∧ errorString2 St.NO_MEMORY = some "could not allocate memory" ∧
    errorString2 St.HEARTBEAT_TIMEOUT = some "heartbeat timeout, connection closed" ∧ errorString2 St.SOCKET_ERROR = some "a socket error occurred" := by
  decide +kernel

/-- C91: the value that stands for no limit in an absolute time is the largest there is, so that no time comes after it. -/
theorem C91_never : TIME_INF = 2 ^ 64 - 1 := rfl

/-- C87: the properties a received message keeps are all those of class basic. -/
theorem C87_all_properties : clonedProps = basicProps.map fun p => (p.1, p.2.1) := by decide +kernel

/-- C87: a fragment of a body is only ever copied into the block that holds the body, and to its end at most. -/
theorem C87_copy_inside (h : PoolM.Heap) (b : PoolM.Buf) (off n : Nat) (hc : PoolM.mayCopy h b off n = true) :
    ∃ p size, b.ptr = some p ∧ (p, size) ∈ h.live ∧ off + n ≤ size := by
  unfold PoolM.mayCopy at hc
  cases hb : b.ptr with
  | none => rw [hb] at hc; cases hc
  | some p =>
    rw [hb] at hc
    dsimp only at hc
    unfold PoolM.Heap.size? at hc
    cases hf : h.live.find? (fun x => x.1 = p) with
    | none => rw [hf] at hc; cases hc
    | some x =>
      rw [hf] at hc
      have h1 := List.mem_of_find?_eq_some hf
      have h2 : x.1 = p := by simpa using List.find?_some hf
      exact ⟨p, x.2, rfl, by rw [← h2]; exact h1, by simpa using hc⟩

end Rmq
