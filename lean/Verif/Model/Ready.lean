import Verif.Model.Conn
/-!
# Is there something to read? — librabbitmq/amqp_socket.c
-/
namespace Rmq

/-- amqp_frames_enqueued, amqp_socket.c:618-620. -/
def framesEnqueued (s : Conn) : Bool :=
  match s.queue with
  | [] => false
  | _ :: _ => true

/-- amqp_data_in_buffer, amqp_socket.c:626-628: sock_inbound_offset < sock_inbound_limit. -/
def dataInBuffer (s : Conn) : Bool :=
  match s.inb with
  | [] => false
  | _ :: _ => true

end Rmq
