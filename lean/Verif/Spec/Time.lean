import Verif.Model.Basic
/-!
# Specification: the documented status codes (amqp_status_enum, include/rabbitmq-c/amqp.h:604-675) and what they mean
-/
namespace Rmq

/-- Every code of the enumeration with its message. -/
def statusMessages : List (Int × String) := [
  (St.OK, "operation completed successfully"),
  (St.NO_MEMORY, "could not allocate memory"),
  (St.BAD_AMQP_DATA, "invalid AMQP data"),
  (St.UNKNOWN_CLASS, "unknown AMQP class id"),
  (St.UNKNOWN_METHOD, "unknown AMQP method id"),
  (St.HOSTNAME_RESOLUTION_FAILED, "hostname lookup failed"),
  (St.INCOMPATIBLE_AMQP_VERSION, "incompatible AMQP version"),
  (St.CONNECTION_CLOSED, "connection closed unexpectedly"),
  (St.BAD_URL, "could not parse AMQP URL"),
  (St.SOCKET_ERROR, "a socket error occurred"),
  (St.INVALID_PARAMETER, "invalid parameter"),
  (St.TABLE_TOO_BIG, "table too large for buffer"),
  (St.WRONG_METHOD, "unexpected method received"),
  (St.TIMEOUT, "request timed out"),
  (St.TIMER_FAILURE, "system timer has failed"),
  (St.HEARTBEAT_TIMEOUT, "heartbeat timeout, connection closed"),
  (St.UNEXPECTED_STATE, "unexpected protocol state"),
  (St.SOCKET_CLOSED, "socket is closed"),
  (St.SOCKET_INUSE, "socket already open"),
  (St.BROKER_UNSUPPORTED_SASL_METHOD, "unsupported sasl method requested"),
  (St.UNSUPPORTED, "parameter value is unsupported"),
  (St.TCP_ERROR, "a socket error occurred"),
  (St.TCP_SOCKETLIB_INIT_ERROR, "socket library initialization failed"),
  (St.SSL_ERROR, "a SSL error occurred"),
  (St.SSL_HOSTNAME_VERIFY_FAILED, "SSL hostname verification failed"),
  (St.SSL_PEER_VERIFY_FAILED, "SSL peer cert verification failed"),
  (St.SSL_CONNECTION_FAILED, "SSL handshake failed"),
  (St.SSL_SET_ENGINE_FAILED, "SSL setting engine failed"),
  (St.SSL_UNIMPLEMENTED, "SSL API is not implemented")]

end Rmq
