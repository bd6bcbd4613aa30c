import Verif.Model.Methods0
/-!
# Method and property tables — GENERATED by scripts/genmethods.py from amqp_framing.c and framing.h

One entry per `case` of the C switches; the script aborts on any statement it does not recognise, so nothing is dropped.
-/
namespace Rmq

/-- amqp_method_name, librabbitmq/amqp_framing.c:102-239: the `case` labels (with their values from framing.h) and the strings. -/
def nameTable : List (UInt32 × String) := [
  (0x000A000A, "AMQP_CONNECTION_START_METHOD"),
  (0x000A000B, "AMQP_CONNECTION_START_OK_METHOD"),
  (0x000A0014, "AMQP_CONNECTION_SECURE_METHOD"),
  (0x000A0015, "AMQP_CONNECTION_SECURE_OK_METHOD"),
  (0x000A001E, "AMQP_CONNECTION_TUNE_METHOD"),
  (0x000A001F, "AMQP_CONNECTION_TUNE_OK_METHOD"),
  (0x000A0028, "AMQP_CONNECTION_OPEN_METHOD"),
  (0x000A0029, "AMQP_CONNECTION_OPEN_OK_METHOD"),
  (0x000A0032, "AMQP_CONNECTION_CLOSE_METHOD"),
  (0x000A0033, "AMQP_CONNECTION_CLOSE_OK_METHOD"),
  (0x000A003C, "AMQP_CONNECTION_BLOCKED_METHOD"),
  (0x000A003D, "AMQP_CONNECTION_UNBLOCKED_METHOD"),
  (0x000A0046, "AMQP_CONNECTION_UPDATE_SECRET_METHOD"),
  (0x000A0047, "AMQP_CONNECTION_UPDATE_SECRET_OK_METHOD"),
  (0x0014000A, "AMQP_CHANNEL_OPEN_METHOD"),
  (0x0014000B, "AMQP_CHANNEL_OPEN_OK_METHOD"),
  (0x00140014, "AMQP_CHANNEL_FLOW_METHOD"),
  (0x00140015, "AMQP_CHANNEL_FLOW_OK_METHOD"),
  (0x00140028, "AMQP_CHANNEL_CLOSE_METHOD"),
  (0x00140029, "AMQP_CHANNEL_CLOSE_OK_METHOD"),
  (0x001E000A, "AMQP_ACCESS_REQUEST_METHOD"),
  (0x001E000B, "AMQP_ACCESS_REQUEST_OK_METHOD"),
  (0x0028000A, "AMQP_EXCHANGE_DECLARE_METHOD"),
  (0x0028000B, "AMQP_EXCHANGE_DECLARE_OK_METHOD"),
  (0x00280014, "AMQP_EXCHANGE_DELETE_METHOD"),
  (0x00280015, "AMQP_EXCHANGE_DELETE_OK_METHOD"),
  (0x0028001E, "AMQP_EXCHANGE_BIND_METHOD"),
  (0x0028001F, "AMQP_EXCHANGE_BIND_OK_METHOD"),
  (0x00280028, "AMQP_EXCHANGE_UNBIND_METHOD"),
  (0x00280033, "AMQP_EXCHANGE_UNBIND_OK_METHOD"),
  (0x0032000A, "AMQP_QUEUE_DECLARE_METHOD"),
  (0x0032000B, "AMQP_QUEUE_DECLARE_OK_METHOD"),
  (0x00320014, "AMQP_QUEUE_BIND_METHOD"),
  (0x00320015, "AMQP_QUEUE_BIND_OK_METHOD"),
  (0x0032001E, "AMQP_QUEUE_PURGE_METHOD"),
  (0x0032001F, "AMQP_QUEUE_PURGE_OK_METHOD"),
  (0x00320028, "AMQP_QUEUE_DELETE_METHOD"),
  (0x00320029, "AMQP_QUEUE_DELETE_OK_METHOD"),
  (0x00320032, "AMQP_QUEUE_UNBIND_METHOD"),
  (0x00320033, "AMQP_QUEUE_UNBIND_OK_METHOD"),
  (0x003C000A, "AMQP_BASIC_QOS_METHOD"),
  (0x003C000B, "AMQP_BASIC_QOS_OK_METHOD"),
  (0x003C0014, "AMQP_BASIC_CONSUME_METHOD"),
  (0x003C0015, "AMQP_BASIC_CONSUME_OK_METHOD"),
  (0x003C001E, "AMQP_BASIC_CANCEL_METHOD"),
  (0x003C001F, "AMQP_BASIC_CANCEL_OK_METHOD"),
  (0x003C0028, "AMQP_BASIC_PUBLISH_METHOD"),
  (0x003C0032, "AMQP_BASIC_RETURN_METHOD"),
  (0x003C003C, "AMQP_BASIC_DELIVER_METHOD"),
  (0x003C0046, "AMQP_BASIC_GET_METHOD"),
  (0x003C0047, "AMQP_BASIC_GET_OK_METHOD"),
  (0x003C0048, "AMQP_BASIC_GET_EMPTY_METHOD"),
  (0x003C0050, "AMQP_BASIC_ACK_METHOD"),
  (0x003C005A, "AMQP_BASIC_REJECT_METHOD"),
  (0x003C0064, "AMQP_BASIC_RECOVER_ASYNC_METHOD"),
  (0x003C006E, "AMQP_BASIC_RECOVER_METHOD"),
  (0x003C006F, "AMQP_BASIC_RECOVER_OK_METHOD"),
  (0x003C0078, "AMQP_BASIC_NACK_METHOD"),
  (0x005A000A, "AMQP_TX_SELECT_METHOD"),
  (0x005A000B, "AMQP_TX_SELECT_OK_METHOD"),
  (0x005A0014, "AMQP_TX_COMMIT_METHOD"),
  (0x005A0015, "AMQP_TX_COMMIT_OK_METHOD"),
  (0x005A001E, "AMQP_TX_ROLLBACK_METHOD"),
  (0x005A001F, "AMQP_TX_ROLLBACK_OK_METHOD"),
  (0x0055000A, "AMQP_CONFIRM_SELECT_METHOD"),
  (0x0055000B, "AMQP_CONFIRM_SELECT_OK_METHOD")]

/-- amqp_method_has_content, librabbitmq/amqp_framing.c:241-254: the labels answering 1. -/
def contentTable : List UInt32 := [0x003C0028, 0x003C0032, 0x003C003C, 0x003C0047]

/-- The method argument structs, include/rabbitmq-c/framing.h:150-783 (an empty struct has only the placeholder `char dummy`). -/
def structTable : List (UInt32 × List (Fld × CType)) := [
  -- AMQP_CONNECTION_START_METHOD: framing.h:154-160
  (0x000A000A, [(.version_major, .octet), (.version_minor, .octet), (.server_properties, .table), (.mechanisms, .bytes), (.locales, .bytes)]),
  -- AMQP_CONNECTION_START_OK_METHOD: framing.h:166-171
  (0x000A000B, [(.client_properties, .table), (.mechanism, .bytes), (.response, .bytes), (.locale, .bytes)]),
  -- AMQP_CONNECTION_SECURE_METHOD: framing.h:177-179
  (0x000A0014, [(.challenge, .bytes)]),
  -- AMQP_CONNECTION_SECURE_OK_METHOD: framing.h:185-187
  (0x000A0015, [(.response, .bytes)]),
  -- AMQP_CONNECTION_TUNE_METHOD: framing.h:193-197
  (0x000A001E, [(.channel_max, .short), (.frame_max, .long), (.heartbeat, .short)]),
  -- AMQP_CONNECTION_TUNE_OK_METHOD: framing.h:203-207
  (0x000A001F, [(.channel_max, .short), (.frame_max, .long), (.heartbeat, .short)]),
  -- AMQP_CONNECTION_OPEN_METHOD: framing.h:213-217
  (0x000A0028, [(.virtual_host, .bytes), (.capabilities, .bytes), (.insist, .bool)]),
  -- AMQP_CONNECTION_OPEN_OK_METHOD: framing.h:223-225
  (0x000A0029, [(.known_hosts, .bytes)]),
  -- AMQP_CONNECTION_CLOSE_METHOD: framing.h:231-236
  (0x000A0032, [(.reply_code, .short), (.reply_text, .bytes), (.class_id, .short), (.method_id, .short)]),
  -- AMQP_CONNECTION_CLOSE_OK_METHOD: framing.h:242-244
  (0x000A0033, []),
  -- AMQP_CONNECTION_BLOCKED_METHOD: framing.h:250-252
  (0x000A003C, [(.reason, .bytes)]),
  -- AMQP_CONNECTION_UNBLOCKED_METHOD: framing.h:258-260
  (0x000A003D, []),
  -- AMQP_CONNECTION_UPDATE_SECRET_METHOD: framing.h:266-269
  (0x000A0046, [(.new_secret, .bytes), (.reason, .bytes)]),
  -- AMQP_CONNECTION_UPDATE_SECRET_OK_METHOD: framing.h:275-277
  (0x000A0047, []),
  -- AMQP_CHANNEL_OPEN_METHOD: framing.h:283-285
  (0x0014000A, [(.out_of_band, .bytes)]),
  -- AMQP_CHANNEL_OPEN_OK_METHOD: framing.h:291-293
  (0x0014000B, [(.channel_id, .bytes)]),
  -- AMQP_CHANNEL_FLOW_METHOD: framing.h:299-301
  (0x00140014, [(.active, .bool)]),
  -- AMQP_CHANNEL_FLOW_OK_METHOD: framing.h:307-309
  (0x00140015, [(.active, .bool)]),
  -- AMQP_CHANNEL_CLOSE_METHOD: framing.h:315-320
  (0x00140028, [(.reply_code, .short), (.reply_text, .bytes), (.class_id, .short), (.method_id, .short)]),
  -- AMQP_CHANNEL_CLOSE_OK_METHOD: framing.h:326-328
  (0x00140029, []),
  -- AMQP_ACCESS_REQUEST_METHOD: framing.h:334-341
  (0x001E000A, [(.realm, .bytes), (.exclusive, .bool), (.passive, .bool), (.active, .bool), (.write, .bool), (.read, .bool)]),
  -- AMQP_ACCESS_REQUEST_OK_METHOD: framing.h:347-349
  (0x001E000B, [(.ticket, .short)]),
  -- AMQP_EXCHANGE_DECLARE_METHOD: framing.h:355-365
  (0x0028000A, [(.ticket, .short), (.exchange, .bytes), (.type, .bytes), (.passive, .bool), (.durable, .bool), (.auto_delete, .bool), (.internal, .bool), (.nowait, .bool), (.arguments, .table)]),
  -- AMQP_EXCHANGE_DECLARE_OK_METHOD: framing.h:371-373
  (0x0028000B, []),
  -- AMQP_EXCHANGE_DELETE_METHOD: framing.h:379-384
  (0x00280014, [(.ticket, .short), (.exchange, .bytes), (.if_unused, .bool), (.nowait, .bool)]),
  -- AMQP_EXCHANGE_DELETE_OK_METHOD: framing.h:390-392
  (0x00280015, []),
  -- AMQP_EXCHANGE_BIND_METHOD: framing.h:398-405
  (0x0028001E, [(.ticket, .short), (.destination, .bytes), (.source, .bytes), (.routing_key, .bytes), (.nowait, .bool), (.arguments, .table)]),
  -- AMQP_EXCHANGE_BIND_OK_METHOD: framing.h:411-413
  (0x0028001F, []),
  -- AMQP_EXCHANGE_UNBIND_METHOD: framing.h:419-426
  (0x00280028, [(.ticket, .short), (.destination, .bytes), (.source, .bytes), (.routing_key, .bytes), (.nowait, .bool), (.arguments, .table)]),
  -- AMQP_EXCHANGE_UNBIND_OK_METHOD: framing.h:432-434
  (0x00280033, []),
  -- AMQP_QUEUE_DECLARE_METHOD: framing.h:440-449
  (0x0032000A, [(.ticket, .short), (.queue, .bytes), (.passive, .bool), (.durable, .bool), (.exclusive, .bool), (.auto_delete, .bool), (.nowait, .bool), (.arguments, .table)]),
  -- AMQP_QUEUE_DECLARE_OK_METHOD: framing.h:455-459
  (0x0032000B, [(.queue, .bytes), (.message_count, .long), (.consumer_count, .long)]),
  -- AMQP_QUEUE_BIND_METHOD: framing.h:465-472
  (0x00320014, [(.ticket, .short), (.queue, .bytes), (.exchange, .bytes), (.routing_key, .bytes), (.nowait, .bool), (.arguments, .table)]),
  -- AMQP_QUEUE_BIND_OK_METHOD: framing.h:478-480
  (0x00320015, []),
  -- AMQP_QUEUE_PURGE_METHOD: framing.h:486-490
  (0x0032001E, [(.ticket, .short), (.queue, .bytes), (.nowait, .bool)]),
  -- AMQP_QUEUE_PURGE_OK_METHOD: framing.h:496-498
  (0x0032001F, [(.message_count, .long)]),
  -- AMQP_QUEUE_DELETE_METHOD: framing.h:504-510
  (0x00320028, [(.ticket, .short), (.queue, .bytes), (.if_unused, .bool), (.if_empty, .bool), (.nowait, .bool)]),
  -- AMQP_QUEUE_DELETE_OK_METHOD: framing.h:516-518
  (0x00320029, [(.message_count, .long)]),
  -- AMQP_QUEUE_UNBIND_METHOD: framing.h:524-530
  (0x00320032, [(.ticket, .short), (.queue, .bytes), (.exchange, .bytes), (.routing_key, .bytes), (.arguments, .table)]),
  -- AMQP_QUEUE_UNBIND_OK_METHOD: framing.h:536-538
  (0x00320033, []),
  -- AMQP_BASIC_QOS_METHOD: framing.h:544-548
  (0x003C000A, [(.prefetch_size, .long), (.prefetch_count, .short), (.global, .bool)]),
  -- AMQP_BASIC_QOS_OK_METHOD: framing.h:554-556
  (0x003C000B, []),
  -- AMQP_BASIC_CONSUME_METHOD: framing.h:562-571
  (0x003C0014, [(.ticket, .short), (.queue, .bytes), (.consumer_tag, .bytes), (.no_local, .bool), (.no_ack, .bool), (.exclusive, .bool), (.nowait, .bool), (.arguments, .table)]),
  -- AMQP_BASIC_CONSUME_OK_METHOD: framing.h:577-579
  (0x003C0015, [(.consumer_tag, .bytes)]),
  -- AMQP_BASIC_CANCEL_METHOD: framing.h:585-588
  (0x003C001E, [(.consumer_tag, .bytes), (.nowait, .bool)]),
  -- AMQP_BASIC_CANCEL_OK_METHOD: framing.h:594-596
  (0x003C001F, [(.consumer_tag, .bytes)]),
  -- AMQP_BASIC_PUBLISH_METHOD: framing.h:602-608
  (0x003C0028, [(.ticket, .short), (.exchange, .bytes), (.routing_key, .bytes), (.mandatory, .bool), (.immediate, .bool)]),
  -- AMQP_BASIC_RETURN_METHOD: framing.h:614-619
  (0x003C0032, [(.reply_code, .short), (.reply_text, .bytes), (.exchange, .bytes), (.routing_key, .bytes)]),
  -- AMQP_BASIC_DELIVER_METHOD: framing.h:625-631
  (0x003C003C, [(.consumer_tag, .bytes), (.delivery_tag, .longlong), (.redelivered, .bool), (.exchange, .bytes), (.routing_key, .bytes)]),
  -- AMQP_BASIC_GET_METHOD: framing.h:637-641
  (0x003C0046, [(.ticket, .short), (.queue, .bytes), (.no_ack, .bool)]),
  -- AMQP_BASIC_GET_OK_METHOD: framing.h:647-653
  (0x003C0047, [(.delivery_tag, .longlong), (.redelivered, .bool), (.exchange, .bytes), (.routing_key, .bytes), (.message_count, .long)]),
  -- AMQP_BASIC_GET_EMPTY_METHOD: framing.h:659-661
  (0x003C0048, [(.cluster_id, .bytes)]),
  -- AMQP_BASIC_ACK_METHOD: framing.h:667-670
  (0x003C0050, [(.delivery_tag, .longlong), (.multiple, .bool)]),
  -- AMQP_BASIC_REJECT_METHOD: framing.h:676-679
  (0x003C005A, [(.delivery_tag, .longlong), (.requeue, .bool)]),
  -- AMQP_BASIC_RECOVER_ASYNC_METHOD: framing.h:685-687
  (0x003C0064, [(.requeue, .bool)]),
  -- AMQP_BASIC_RECOVER_METHOD: framing.h:693-695
  (0x003C006E, [(.requeue, .bool)]),
  -- AMQP_BASIC_RECOVER_OK_METHOD: framing.h:701-703
  (0x003C006F, []),
  -- AMQP_BASIC_NACK_METHOD: framing.h:709-713
  (0x003C0078, [(.delivery_tag, .longlong), (.multiple, .bool), (.requeue, .bool)]),
  -- AMQP_TX_SELECT_METHOD: framing.h:719-721
  (0x005A000A, []),
  -- AMQP_TX_SELECT_OK_METHOD: framing.h:727-729
  (0x005A000B, []),
  -- AMQP_TX_COMMIT_METHOD: framing.h:735-737
  (0x005A0014, []),
  -- AMQP_TX_COMMIT_OK_METHOD: framing.h:743-745
  (0x005A0015, []),
  -- AMQP_TX_ROLLBACK_METHOD: framing.h:751-753
  (0x005A001E, []),
  -- AMQP_TX_ROLLBACK_OK_METHOD: framing.h:759-761
  (0x005A001F, []),
  -- AMQP_CONFIRM_SELECT_METHOD: framing.h:767-769
  (0x0055000A, [(.nowait, .bool)]),
  -- AMQP_CONFIRM_SELECT_OK_METHOD: framing.h:775-777
  (0x0055000B, [])]

/-- amqp_encode_method, librabbitmq/amqp_framing.c:1614-2321: the body of each `case`. -/
def encTableOps : List (UInt32 × List Op) := [
  -- AMQP_CONNECTION_START_METHOD: amqp_framing.c:1620-1639
  (0x000A000A, [.field .octet .version_major, .field .octet .version_minor, .field .table .server_properties, .field .longstr .mechanisms, .field .longstr .locales]),
  -- AMQP_CONNECTION_START_OK_METHOD: amqp_framing.c:1640-1659
  (0x000A000B, [.field .table .client_properties, .field .shortstr .mechanism, .field .longstr .response, .field .shortstr .locale]),
  -- AMQP_CONNECTION_SECURE_METHOD: amqp_framing.c:1660-1667
  (0x000A0014, [.field .longstr .challenge]),
  -- AMQP_CONNECTION_SECURE_OK_METHOD: amqp_framing.c:1668-1675
  (0x000A0015, [.field .longstr .response]),
  -- AMQP_CONNECTION_TUNE_METHOD: amqp_framing.c:1676-1685
  (0x000A001E, [.field .short .channel_max, .field .long .frame_max, .field .short .heartbeat]),
  -- AMQP_CONNECTION_TUNE_OK_METHOD: amqp_framing.c:1686-1695
  (0x000A001F, [.field .short .channel_max, .field .long .frame_max, .field .short .heartbeat]),
  -- AMQP_CONNECTION_OPEN_METHOD: amqp_framing.c:1696-1711
  (0x000A0028, [.field .shortstr .virtual_host, .field .shortstr .capabilities, .bits [(.insist, 0)]]),
  -- AMQP_CONNECTION_OPEN_OK_METHOD: amqp_framing.c:1712-1719
  (0x000A0029, [.field .shortstr .known_hosts]),
  -- AMQP_CONNECTION_CLOSE_METHOD: amqp_framing.c:1720-1733
  (0x000A0032, [.field .short .reply_code, .field .shortstr .reply_text, .field .short .class_id, .field .short .method_id]),
  -- AMQP_CONNECTION_CLOSE_OK_METHOD: amqp_framing.c:1734-1736
  (0x000A0033, []),
  -- AMQP_CONNECTION_BLOCKED_METHOD: amqp_framing.c:1737-1744
  (0x000A003C, [.field .shortstr .reason]),
  -- AMQP_CONNECTION_UNBLOCKED_METHOD: amqp_framing.c:1745-1747
  (0x000A003D, []),
  -- AMQP_CONNECTION_UPDATE_SECRET_METHOD: amqp_framing.c:1748-1760
  (0x000A0046, [.field .longstr .new_secret, .field .shortstr .reason]),
  -- AMQP_CONNECTION_UPDATE_SECRET_OK_METHOD: amqp_framing.c:1761-1763
  (0x000A0047, []),
  -- AMQP_CHANNEL_OPEN_METHOD: amqp_framing.c:1764-1771
  (0x0014000A, [.field .shortstr .out_of_band]),
  -- AMQP_CHANNEL_OPEN_OK_METHOD: amqp_framing.c:1772-1779
  (0x0014000B, [.field .longstr .channel_id]),
  -- AMQP_CHANNEL_FLOW_METHOD: amqp_framing.c:1780-1787
  (0x00140014, [.bits [(.active, 0)]]),
  -- AMQP_CHANNEL_FLOW_OK_METHOD: amqp_framing.c:1788-1795
  (0x00140015, [.bits [(.active, 0)]]),
  -- AMQP_CHANNEL_CLOSE_METHOD: amqp_framing.c:1796-1809
  (0x00140028, [.field .short .reply_code, .field .shortstr .reply_text, .field .short .class_id, .field .short .method_id]),
  -- AMQP_CHANNEL_CLOSE_OK_METHOD: amqp_framing.c:1810-1812
  (0x00140029, []),
  -- AMQP_ACCESS_REQUEST_METHOD: amqp_framing.c:1813-1828
  (0x001E000A, [.field .shortstr .realm, .bits [(.exclusive, 0), (.passive, 1), (.active, 2), (.write, 3), (.read, 4)]]),
  -- AMQP_ACCESS_REQUEST_OK_METHOD: amqp_framing.c:1829-1834
  (0x001E000B, [.field .short .ticket]),
  -- AMQP_EXCHANGE_DECLARE_METHOD: amqp_framing.c:1835-1860
  (0x0028000A, [.field .short .ticket, .field .shortstr .exchange, .field .shortstr .type, .bits [(.passive, 0), (.durable, 1), (.auto_delete, 2), (.internal, 3), (.nowait, 4)], .field .table .arguments]),
  -- AMQP_EXCHANGE_DECLARE_OK_METHOD: amqp_framing.c:1861-1863
  (0x0028000B, []),
  -- AMQP_EXCHANGE_DELETE_METHOD: amqp_framing.c:1864-1878
  (0x00280014, [.field .short .ticket, .field .shortstr .exchange, .bits [(.if_unused, 0), (.nowait, 1)]]),
  -- AMQP_EXCHANGE_DELETE_OK_METHOD: amqp_framing.c:1879-1881
  (0x00280015, []),
  -- AMQP_EXCHANGE_BIND_METHOD: amqp_framing.c:1882-1907
  (0x0028001E, [.field .short .ticket, .field .shortstr .destination, .field .shortstr .source, .field .shortstr .routing_key, .bits [(.nowait, 0)], .field .table .arguments]),
  -- AMQP_EXCHANGE_BIND_OK_METHOD: amqp_framing.c:1908-1910
  (0x0028001F, []),
  -- AMQP_EXCHANGE_UNBIND_METHOD: amqp_framing.c:1911-1936
  (0x00280028, [.field .short .ticket, .field .shortstr .destination, .field .shortstr .source, .field .shortstr .routing_key, .bits [(.nowait, 0)], .field .table .arguments]),
  -- AMQP_EXCHANGE_UNBIND_OK_METHOD: amqp_framing.c:1937-1939
  (0x00280033, []),
  -- AMQP_QUEUE_DECLARE_METHOD: amqp_framing.c:1940-1961
  (0x0032000A, [.field .short .ticket, .field .shortstr .queue, .bits [(.passive, 0), (.durable, 1), (.exclusive, 2), (.auto_delete, 3), (.nowait, 4)], .field .table .arguments]),
  -- AMQP_QUEUE_DECLARE_OK_METHOD: amqp_framing.c:1962-1973
  (0x0032000B, [.field .shortstr .queue, .field .long .message_count, .field .long .consumer_count]),
  -- AMQP_QUEUE_BIND_METHOD: amqp_framing.c:1974-1999
  (0x00320014, [.field .short .ticket, .field .shortstr .queue, .field .shortstr .exchange, .field .shortstr .routing_key, .bits [(.nowait, 0)], .field .table .arguments]),
  -- AMQP_QUEUE_BIND_OK_METHOD: amqp_framing.c:2000-2002
  (0x00320015, []),
  -- AMQP_QUEUE_PURGE_METHOD: amqp_framing.c:2003-2016
  (0x0032001E, [.field .short .ticket, .field .shortstr .queue, .bits [(.nowait, 0)]]),
  -- AMQP_QUEUE_PURGE_OK_METHOD: amqp_framing.c:2017-2022
  (0x0032001F, [.field .long .message_count]),
  -- AMQP_QUEUE_DELETE_METHOD: amqp_framing.c:2023-2038
  (0x00320028, [.field .short .ticket, .field .shortstr .queue, .bits [(.if_unused, 0), (.if_empty, 1), (.nowait, 2)]]),
  -- AMQP_QUEUE_DELETE_OK_METHOD: amqp_framing.c:2039-2044
  (0x00320029, [.field .long .message_count]),
  -- AMQP_QUEUE_UNBIND_METHOD: amqp_framing.c:2045-2066
  (0x00320032, [.field .short .ticket, .field .shortstr .queue, .field .shortstr .exchange, .field .shortstr .routing_key, .field .table .arguments]),
  -- AMQP_QUEUE_UNBIND_OK_METHOD: amqp_framing.c:2067-2069
  (0x00320033, []),
  -- AMQP_BASIC_QOS_METHOD: amqp_framing.c:2070-2081
  (0x003C000A, [.field .long .prefetch_size, .field .short .prefetch_count, .bits [(.global, 0)]]),
  -- AMQP_BASIC_QOS_OK_METHOD: amqp_framing.c:2082-2084
  (0x003C000B, []),
  -- AMQP_BASIC_CONSUME_METHOD: amqp_framing.c:2085-2109
  (0x003C0014, [.field .short .ticket, .field .shortstr .queue, .field .shortstr .consumer_tag, .bits [(.no_local, 0), (.no_ack, 1), (.exclusive, 2), (.nowait, 3)], .field .table .arguments]),
  -- AMQP_BASIC_CONSUME_OK_METHOD: amqp_framing.c:2110-2117
  (0x003C0015, [.field .shortstr .consumer_tag]),
  -- AMQP_BASIC_CANCEL_METHOD: amqp_framing.c:2118-2129
  (0x003C001E, [.field .shortstr .consumer_tag, .bits [(.nowait, 0)]]),
  -- AMQP_BASIC_CANCEL_OK_METHOD: amqp_framing.c:2130-2137
  (0x003C001F, [.field .shortstr .consumer_tag]),
  -- AMQP_BASIC_PUBLISH_METHOD: amqp_framing.c:2138-2156
  (0x003C0028, [.field .short .ticket, .field .shortstr .exchange, .field .shortstr .routing_key, .bits [(.mandatory, 0), (.immediate, 1)]]),
  -- AMQP_BASIC_RETURN_METHOD: amqp_framing.c:2157-2174
  (0x003C0032, [.field .short .reply_code, .field .shortstr .reply_text, .field .shortstr .exchange, .field .shortstr .routing_key]),
  -- AMQP_BASIC_DELIVER_METHOD: amqp_framing.c:2175-2196
  (0x003C003C, [.field .shortstr .consumer_tag, .field .longlong .delivery_tag, .bits [(.redelivered, 0)], .field .shortstr .exchange, .field .shortstr .routing_key]),
  -- AMQP_BASIC_GET_METHOD: amqp_framing.c:2197-2210
  (0x003C0046, [.field .short .ticket, .field .shortstr .queue, .bits [(.no_ack, 0)]]),
  -- AMQP_BASIC_GET_OK_METHOD: amqp_framing.c:2211-2230
  (0x003C0047, [.field .longlong .delivery_tag, .bits [(.redelivered, 0)], .field .shortstr .exchange, .field .shortstr .routing_key, .field .long .message_count]),
  -- AMQP_BASIC_GET_EMPTY_METHOD: amqp_framing.c:2231-2238
  (0x003C0048, [.field .shortstr .cluster_id]),
  -- AMQP_BASIC_ACK_METHOD: amqp_framing.c:2239-2248
  (0x003C0050, [.field .longlong .delivery_tag, .bits [(.multiple, 0)]]),
  -- AMQP_BASIC_REJECT_METHOD: amqp_framing.c:2249-2258
  (0x003C005A, [.field .longlong .delivery_tag, .bits [(.requeue, 0)]]),
  -- AMQP_BASIC_RECOVER_ASYNC_METHOD: amqp_framing.c:2259-2266
  (0x003C0064, [.bits [(.requeue, 0)]]),
  -- AMQP_BASIC_RECOVER_METHOD: amqp_framing.c:2267-2274
  (0x003C006E, [.bits [(.requeue, 0)]]),
  -- AMQP_BASIC_RECOVER_OK_METHOD: amqp_framing.c:2275-2277
  (0x003C006F, []),
  -- AMQP_BASIC_NACK_METHOD: amqp_framing.c:2278-2288
  (0x003C0078, [.field .longlong .delivery_tag, .bits [(.multiple, 0), (.requeue, 1)]]),
  -- AMQP_TX_SELECT_METHOD: amqp_framing.c:2289-2291
  (0x005A000A, []),
  -- AMQP_TX_SELECT_OK_METHOD: amqp_framing.c:2292-2294
  (0x005A000B, []),
  -- AMQP_TX_COMMIT_METHOD: amqp_framing.c:2295-2297
  (0x005A0014, []),
  -- AMQP_TX_COMMIT_OK_METHOD: amqp_framing.c:2298-2300
  (0x005A0015, []),
  -- AMQP_TX_ROLLBACK_METHOD: amqp_framing.c:2301-2303
  (0x005A001E, []),
  -- AMQP_TX_ROLLBACK_OK_METHOD: amqp_framing.c:2304-2306
  (0x005A001F, []),
  -- AMQP_CONFIRM_SELECT_METHOD: amqp_framing.c:2307-2314
  (0x0055000A, [.bits [(.nowait, 0)]]),
  -- AMQP_CONFIRM_SELECT_OK_METHOD: amqp_framing.c:2315-2317
  (0x0055000B, [])]

/-- amqp_decode_method, librabbitmq/amqp_framing.c:256-1409: the body of each `case`. -/
def decTableOps : List (UInt32 × List Op) := [
  -- AMQP_CONNECTION_START_METHOD: amqp_framing.c:262-291
  (0x000A000A, [.field .octet .version_major, .field .octet .version_minor, .field .table .server_properties, .field .longstr .mechanisms, .field .longstr .locales]),
  -- AMQP_CONNECTION_START_OK_METHOD: amqp_framing.c:292-324
  (0x000A000B, [.field .table .client_properties, .field .shortstr .mechanism, .field .longstr .response, .field .shortstr .locale]),
  -- AMQP_CONNECTION_SECURE_METHOD: amqp_framing.c:325-339
  (0x000A0014, [.field .longstr .challenge]),
  -- AMQP_CONNECTION_SECURE_OK_METHOD: amqp_framing.c:340-355
  (0x000A0015, [.field .longstr .response]),
  -- AMQP_CONNECTION_TUNE_METHOD: amqp_framing.c:356-370
  (0x000A001E, [.field .short .channel_max, .field .long .frame_max, .field .short .heartbeat]),
  -- AMQP_CONNECTION_TUNE_OK_METHOD: amqp_framing.c:371-386
  (0x000A001F, [.field .short .channel_max, .field .long .frame_max, .field .short .heartbeat]),
  -- AMQP_CONNECTION_OPEN_METHOD: amqp_framing.c:387-410
  (0x000A0028, [.field .shortstr .virtual_host, .field .shortstr .capabilities, .bits [(.insist, 0)]]),
  -- AMQP_CONNECTION_OPEN_OK_METHOD: amqp_framing.c:411-426
  (0x000A0029, [.field .shortstr .known_hosts]),
  -- AMQP_CONNECTION_CLOSE_METHOD: amqp_framing.c:427-447
  (0x000A0032, [.field .short .reply_code, .field .shortstr .reply_text, .field .short .class_id, .field .short .method_id]),
  -- AMQP_CONNECTION_CLOSE_OK_METHOD: amqp_framing.c:448-457
  (0x000A0033, []),
  -- AMQP_CONNECTION_BLOCKED_METHOD: amqp_framing.c:458-473
  (0x000A003C, [.field .shortstr .reason]),
  -- AMQP_CONNECTION_UNBLOCKED_METHOD: amqp_framing.c:474-483
  (0x000A003D, []),
  -- AMQP_CONNECTION_UPDATE_SECRET_METHOD: amqp_framing.c:484-505
  (0x000A0046, [.field .longstr .new_secret, .field .shortstr .reason]),
  -- AMQP_CONNECTION_UPDATE_SECRET_OK_METHOD: amqp_framing.c:506-515
  (0x000A0047, []),
  -- AMQP_CHANNEL_OPEN_METHOD: amqp_framing.c:516-530
  (0x0014000A, [.field .shortstr .out_of_band]),
  -- AMQP_CHANNEL_OPEN_OK_METHOD: amqp_framing.c:531-545
  (0x0014000B, [.field .longstr .channel_id]),
  -- AMQP_CHANNEL_FLOW_METHOD: amqp_framing.c:546-557
  (0x00140014, [.bits [(.active, 0)]]),
  -- AMQP_CHANNEL_FLOW_OK_METHOD: amqp_framing.c:558-569
  (0x00140015, [.bits [(.active, 0)]]),
  -- AMQP_CHANNEL_CLOSE_METHOD: amqp_framing.c:570-590
  (0x00140028, [.field .short .reply_code, .field .shortstr .reply_text, .field .short .class_id, .field .short .method_id]),
  -- AMQP_CHANNEL_CLOSE_OK_METHOD: amqp_framing.c:591-599
  (0x00140029, []),
  -- AMQP_ACCESS_REQUEST_METHOD: amqp_framing.c:600-621
  (0x001E000A, [.field .shortstr .realm, .bits [(.exclusive, 0), (.passive, 1), (.active, 2), (.write, 3), (.read, 4)]]),
  -- AMQP_ACCESS_REQUEST_OK_METHOD: amqp_framing.c:622-632
  (0x001E000B, [.field .short .ticket]),
  -- AMQP_EXCHANGE_DECLARE_METHOD: amqp_framing.c:633-666
  (0x0028000A, [.field .short .ticket, .field .shortstr .exchange, .field .shortstr .type, .bits [(.passive, 0), (.durable, 1), (.auto_delete, 2), (.internal, 3), (.nowait, 4)], .field .table .arguments]),
  -- AMQP_EXCHANGE_DECLARE_OK_METHOD: amqp_framing.c:667-676
  (0x0028000B, []),
  -- AMQP_EXCHANGE_DELETE_METHOD: amqp_framing.c:677-697
  (0x00280014, [.field .short .ticket, .field .shortstr .exchange, .bits [(.if_unused, 0), (.nowait, 1)]]),
  -- AMQP_EXCHANGE_DELETE_OK_METHOD: amqp_framing.c:698-707
  (0x00280015, []),
  -- AMQP_EXCHANGE_BIND_METHOD: amqp_framing.c:708-743
  (0x0028001E, [.field .short .ticket, .field .shortstr .destination, .field .shortstr .source, .field .shortstr .routing_key, .bits [(.nowait, 0)], .field .table .arguments]),
  -- AMQP_EXCHANGE_BIND_OK_METHOD: amqp_framing.c:744-752
  (0x0028001F, []),
  -- AMQP_EXCHANGE_UNBIND_METHOD: amqp_framing.c:753-788
  (0x00280028, [.field .short .ticket, .field .shortstr .destination, .field .shortstr .source, .field .shortstr .routing_key, .bits [(.nowait, 0)], .field .table .arguments]),
  -- AMQP_EXCHANGE_UNBIND_OK_METHOD: amqp_framing.c:789-798
  (0x00280033, []),
  -- AMQP_QUEUE_DECLARE_METHOD: amqp_framing.c:799-826
  (0x0032000A, [.field .short .ticket, .field .shortstr .queue, .bits [(.passive, 0), (.durable, 1), (.exclusive, 2), (.auto_delete, 3), (.nowait, 4)], .field .table .arguments]),
  -- AMQP_QUEUE_DECLARE_OK_METHOD: amqp_framing.c:827-845
  (0x0032000B, [.field .shortstr .queue, .field .long .message_count, .field .long .consumer_count]),
  -- AMQP_QUEUE_BIND_METHOD: amqp_framing.c:846-881
  (0x00320014, [.field .short .ticket, .field .shortstr .queue, .field .shortstr .exchange, .field .shortstr .routing_key, .bits [(.nowait, 0)], .field .table .arguments]),
  -- AMQP_QUEUE_BIND_OK_METHOD: amqp_framing.c:882-890
  (0x00320015, []),
  -- AMQP_QUEUE_PURGE_METHOD: amqp_framing.c:891-910
  (0x0032001E, [.field .short .ticket, .field .shortstr .queue, .bits [(.nowait, 0)]]),
  -- AMQP_QUEUE_PURGE_OK_METHOD: amqp_framing.c:911-921
  (0x0032001F, [.field .long .message_count]),
  -- AMQP_QUEUE_DELETE_METHOD: amqp_framing.c:922-943
  (0x00320028, [.field .short .ticket, .field .shortstr .queue, .bits [(.if_unused, 0), (.if_empty, 1), (.nowait, 2)]]),
  -- AMQP_QUEUE_DELETE_OK_METHOD: amqp_framing.c:944-954
  (0x00320029, [.field .long .message_count]),
  -- AMQP_QUEUE_UNBIND_METHOD: amqp_framing.c:955-987
  (0x00320032, [.field .short .ticket, .field .shortstr .queue, .field .shortstr .exchange, .field .shortstr .routing_key, .field .table .arguments]),
  -- AMQP_QUEUE_UNBIND_OK_METHOD: amqp_framing.c:988-996
  (0x00320033, []),
  -- AMQP_BASIC_QOS_METHOD: amqp_framing.c:997-1012
  (0x003C000A, [.field .long .prefetch_size, .field .short .prefetch_count, .bits [(.global, 0)]]),
  -- AMQP_BASIC_QOS_OK_METHOD: amqp_framing.c:1013-1021
  (0x003C000B, []),
  -- AMQP_BASIC_CONSUME_METHOD: amqp_framing.c:1022-1054
  (0x003C0014, [.field .short .ticket, .field .shortstr .queue, .field .shortstr .consumer_tag, .bits [(.no_local, 0), (.no_ack, 1), (.exclusive, 2), (.nowait, 3)], .field .table .arguments]),
  -- AMQP_BASIC_CONSUME_OK_METHOD: amqp_framing.c:1055-1069
  (0x003C0015, [.field .shortstr .consumer_tag]),
  -- AMQP_BASIC_CANCEL_METHOD: amqp_framing.c:1070-1087
  (0x003C001E, [.field .shortstr .consumer_tag, .bits [(.nowait, 0)]]),
  -- AMQP_BASIC_CANCEL_OK_METHOD: amqp_framing.c:1088-1102
  (0x003C001F, [.field .shortstr .consumer_tag]),
  -- AMQP_BASIC_PUBLISH_METHOD: amqp_framing.c:1103-1129
  (0x003C0028, [.field .short .ticket, .field .shortstr .exchange, .field .shortstr .routing_key, .bits [(.mandatory, 0), (.immediate, 1)]]),
  -- AMQP_BASIC_RETURN_METHOD: amqp_framing.c:1130-1158
  (0x003C0032, [.field .short .reply_code, .field .shortstr .reply_text, .field .shortstr .exchange, .field .shortstr .routing_key]),
  -- AMQP_BASIC_DELIVER_METHOD: amqp_framing.c:1159-1190
  (0x003C003C, [.field .shortstr .consumer_tag, .field .longlong .delivery_tag, .bits [(.redelivered, 0)], .field .shortstr .exchange, .field .shortstr .routing_key]),
  -- AMQP_BASIC_GET_METHOD: amqp_framing.c:1191-1210
  (0x003C0046, [.field .short .ticket, .field .shortstr .queue, .bits [(.no_ack, 0)]]),
  -- AMQP_BASIC_GET_OK_METHOD: amqp_framing.c:1211-1238
  (0x003C0047, [.field .longlong .delivery_tag, .bits [(.redelivered, 0)], .field .shortstr .exchange, .field .shortstr .routing_key, .field .long .message_count]),
  -- AMQP_BASIC_GET_EMPTY_METHOD: amqp_framing.c:1239-1253
  (0x003C0048, [.field .shortstr .cluster_id]),
  -- AMQP_BASIC_ACK_METHOD: amqp_framing.c:1254-1267
  (0x003C0050, [.field .longlong .delivery_tag, .bits [(.multiple, 0)]]),
  -- AMQP_BASIC_REJECT_METHOD: amqp_framing.c:1268-1281
  (0x003C005A, [.field .longlong .delivery_tag, .bits [(.requeue, 0)]]),
  -- AMQP_BASIC_RECOVER_ASYNC_METHOD: amqp_framing.c:1282-1294
  (0x003C0064, [.bits [(.requeue, 0)]]),
  -- AMQP_BASIC_RECOVER_METHOD: amqp_framing.c:1295-1306
  (0x003C006E, [.bits [(.requeue, 0)]]),
  -- AMQP_BASIC_RECOVER_OK_METHOD: amqp_framing.c:1307-1315
  (0x003C006F, []),
  -- AMQP_BASIC_NACK_METHOD: amqp_framing.c:1316-1330
  (0x003C0078, [.field .longlong .delivery_tag, .bits [(.multiple, 0), (.requeue, 1)]]),
  -- AMQP_TX_SELECT_METHOD: amqp_framing.c:1331-1339
  (0x005A000A, []),
  -- AMQP_TX_SELECT_OK_METHOD: amqp_framing.c:1340-1348
  (0x005A000B, []),
  -- AMQP_TX_COMMIT_METHOD: amqp_framing.c:1349-1357
  (0x005A0014, []),
  -- AMQP_TX_COMMIT_OK_METHOD: amqp_framing.c:1358-1366
  (0x005A0015, []),
  -- AMQP_TX_ROLLBACK_METHOD: amqp_framing.c:1367-1375
  (0x005A001E, []),
  -- AMQP_TX_ROLLBACK_OK_METHOD: amqp_framing.c:1376-1384
  (0x005A001F, []),
  -- AMQP_CONFIRM_SELECT_METHOD: amqp_framing.c:1385-1396
  (0x0055000A, [.bits [(.nowait, 0)]]),
  -- AMQP_CONFIRM_SELECT_OK_METHOD: amqp_framing.c:1397-1405
  (0x0055000B, [])]

/-- amqp_encode_properties, librabbitmq/amqp_framing.c:2323-2455: per class the flag bit tested (framing.h:817-838), the type and the field. -/
def encPropTable : List (UInt16 × List (Nat × FT × Fld)) := [
  -- amqp_framing.c:2348-2350
  (10, []),
  -- amqp_framing.c:2351-2353
  (20, []),
  -- amqp_framing.c:2354-2356
  (30, []),
  -- amqp_framing.c:2357-2359
  (40, []),
  -- amqp_framing.c:2360-2362
  (50, []),
  -- amqp_framing.c:2363-2445
  (60, [(15, .shortstr, .content_type), (14, .shortstr, .content_encoding), (13, .table, .headers), (12, .octet, .delivery_mode), (11, .octet, .priority), (10, .shortstr, .correlation_id), (9, .shortstr, .reply_to), (8, .shortstr, .expiration), (7, .shortstr, .message_id), (6, .longlong, .timestamp), (5, .shortstr, .type), (4, .shortstr, .user_id), (3, .shortstr, .app_id), (2, .shortstr, .cluster_id)]),
  -- amqp_framing.c:2446-2448
  (90, []),
  -- amqp_framing.c:2449-2451
  (85, [])]

/-- amqp_decode_properties, librabbitmq/amqp_framing.c:1411-1612. -/
def decPropTable : List (UInt16 × List (Nat × FT × Fld)) := [
  -- amqp_framing.c:1427-1437
  (10, []),
  -- amqp_framing.c:1438-1448
  (20, []),
  -- amqp_framing.c:1449-1458
  (30, []),
  -- amqp_framing.c:1459-1469
  (40, []),
  -- amqp_framing.c:1470-1479
  (50, []),
  -- amqp_framing.c:1480-1587
  (60, [(15, .shortstr, .content_type), (14, .shortstr, .content_encoding), (13, .table, .headers), (12, .octet, .delivery_mode), (11, .octet, .priority), (10, .shortstr, .correlation_id), (9, .shortstr, .reply_to), (8, .shortstr, .expiration), (7, .shortstr, .message_id), (6, .longlong, .timestamp), (5, .shortstr, .type), (4, .shortstr, .user_id), (3, .shortstr, .app_id), (2, .shortstr, .cluster_id)]),
  -- amqp_framing.c:1588-1597
  (90, []),
  -- amqp_framing.c:1598-1608
  (85, [])]

end Rmq
