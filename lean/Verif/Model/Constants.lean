/-!
# The names and the severity of the protocol's constants

`amqp_constant_name` and `amqp_constant_is_hard_error`, librabbitmq/amqp_framing.c:16-100, with the values of the macros from
include/rabbitmq-c/framing.h:20-44.  Each `case` of the C `switch` is one line here, in the same order.
-/
namespace Rmq

/-- amqp_constant_name, amqp_framing.c:16-72. -/
def constantName (n : Int) : String :=
  if n = 1 then "AMQP_FRAME_METHOD" else  -- AMQP_FRAME_METHOD
  if n = 2 then "AMQP_FRAME_HEADER" else  -- AMQP_FRAME_HEADER
  if n = 3 then "AMQP_FRAME_BODY" else  -- AMQP_FRAME_BODY
  if n = 8 then "AMQP_FRAME_HEARTBEAT" else  -- AMQP_FRAME_HEARTBEAT
  if n = 4096 then "AMQP_FRAME_MIN_SIZE" else  -- AMQP_FRAME_MIN_SIZE
  if n = 206 then "AMQP_FRAME_END" else  -- AMQP_FRAME_END
  if n = 200 then "AMQP_REPLY_SUCCESS" else  -- AMQP_REPLY_SUCCESS
  if n = 311 then "AMQP_CONTENT_TOO_LARGE" else  -- AMQP_CONTENT_TOO_LARGE
  if n = 312 then "AMQP_NO_ROUTE" else  -- AMQP_NO_ROUTE
  if n = 313 then "AMQP_NO_CONSUMERS" else  -- AMQP_NO_CONSUMERS
  if n = 403 then "AMQP_ACCESS_REFUSED" else  -- AMQP_ACCESS_REFUSED
  if n = 404 then "AMQP_NOT_FOUND" else  -- AMQP_NOT_FOUND
  if n = 405 then "AMQP_RESOURCE_LOCKED" else  -- AMQP_RESOURCE_LOCKED
  if n = 406 then "AMQP_PRECONDITION_FAILED" else  -- AMQP_PRECONDITION_FAILED
  if n = 320 then "AMQP_CONNECTION_FORCED" else  -- AMQP_CONNECTION_FORCED
  if n = 402 then "AMQP_INVALID_PATH" else  -- AMQP_INVALID_PATH
  if n = 501 then "AMQP_FRAME_ERROR" else  -- AMQP_FRAME_ERROR
  if n = 502 then "AMQP_SYNTAX_ERROR" else  -- AMQP_SYNTAX_ERROR
  if n = 503 then "AMQP_COMMAND_INVALID" else  -- AMQP_COMMAND_INVALID
  if n = 504 then "AMQP_CHANNEL_ERROR" else  -- AMQP_CHANNEL_ERROR
  if n = 505 then "AMQP_UNEXPECTED_FRAME" else  -- AMQP_UNEXPECTED_FRAME
  if n = 506 then "AMQP_RESOURCE_ERROR" else  -- AMQP_RESOURCE_ERROR
  if n = 530 then "AMQP_NOT_ALLOWED" else  -- AMQP_NOT_ALLOWED
  if n = 540 then "AMQP_NOT_IMPLEMENTED" else  -- AMQP_NOT_IMPLEMENTED
  if n = 541 then "AMQP_INTERNAL_ERROR" else  -- AMQP_INTERNAL_ERROR
  "(unknown)"

/-- amqp_constant_is_hard_error, amqp_framing.c:74-100. -/
def constantIsHardError (n : Int) : Int :=
  if n = 320 then 1 else  -- AMQP_CONNECTION_FORCED
  if n = 402 then 1 else  -- AMQP_INVALID_PATH
  if n = 501 then 1 else  -- AMQP_FRAME_ERROR
  if n = 502 then 1 else  -- AMQP_SYNTAX_ERROR
  if n = 503 then 1 else  -- AMQP_COMMAND_INVALID
  if n = 504 then 1 else  -- AMQP_CHANNEL_ERROR
  if n = 505 then 1 else  -- AMQP_UNEXPECTED_FRAME
  if n = 506 then 1 else  -- AMQP_RESOURCE_ERROR
  if n = 530 then 1 else  -- AMQP_NOT_ALLOWED
  if n = 540 then 1 else  -- AMQP_NOT_IMPLEMENTED
  if n = 541 then 1 else  -- AMQP_INTERNAL_ERROR
  0

end Rmq
