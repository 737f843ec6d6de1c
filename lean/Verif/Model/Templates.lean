import Verif.Model.Template
/-!
The message templates of openleadr/templates, one definition per file.
-/
namespace Openleadr

/-- Namespaces of the templates. -/
def nsOadr : String := "http://openadr.org/oadr-2.0b/2012/07"
def nsEi : String := "http://docs.oasis-open.org/ns/energyinterop/201110"
def nsPyld : String := "http://docs.oasis-open.org/ns/energyinterop/201110/payloads"
def nsEmix : String := "http://docs.oasis-open.org/ns/emix/2011/06"
def nsPower : String := "http://docs.oasis-open.org/ns/emix/2011/06/power"
def nsScale : String := "http://docs.oasis-open.org/ns/emix/2011/06/siscale"
def nsXcal : String := "urn:ietf:params:xml:ns:icalendar-2.0"
def nsStrm : String := "urn:ietf:params:xml:ns:icalendar-2.0:stream"

/-- `<name attrs>body</name>` -/
def el (name : String) (body : List Tmpl) (attrs : List (String × String) := []) : Tmpl := .elem (.fixed name) attrs body

/-- `<name attrs>{{ path|filter }}</name>` -/
def leaf (name : String) (path : List String) (filter : Filter := .plain) (attrs : List (String × String) := []) : Tmpl :=
  .elem (.fixed name) attrs [.out path filter]

/-- `{% if path is defined and path is not none %}body{% endif %}` -/
def ifGiven (path : List String) (body : List Tmpl) : Tmpl := .cond (.given path) body []

/-- `{% if path %}body{% endif %}` -/
def ifTrue (path : List String) (body : List Tmpl) : Tmpl := .cond (.truthy path) body []

/-- `<requestID xmlns="…/payloads">{{ path }}</requestID>` -/
def requestId (path : List String) : Tmpl := leaf "requestID" path .plain [("xmlns", nsPyld)]

/-- The outermost two elements, which all templates have. -/
def signed (name : String) (body : List Tmpl) (attrs outer : List (String × String) := []) : Tmpl :=
  el "oadr:oadrSignedObject" [el ("oadr:" ++ name) body ([("ei:schemaVersion", "2.0b"), ("xmlns:ei", nsEi)] ++ attrs)]
    ([("xmlns:oadr", nsOadr)] ++ outer ++ [("oadr:Id", "oadrSignedObject")])

/-- The response element of the answers. -/
def eiResponse : Tmpl :=
  el "ei:eiResponse" [leaf "ei:responseCode" ["response", "response_code"], leaf "ei:responseDescription" ["response", "response_description"],
    requestId ["response", "request_id"]]

/-- oadrCancelOpt.xml -/
def tCancelOpt : Tmpl := signed "oadrCancelOpt" [requestId ["request_id"], leaf "ei:optID" ["opt_id"], leaf "ei:venID" ["ven_id"]]

/-- oadrCancelPartyRegistration.xml -/
def tCancelPartyRegistration : Tmpl :=
  signed "oadrCancelPartyRegistration" [requestId ["request_id"], leaf "ei:registrationID" ["registration_id"], leaf "ei:venID" ["ven_id"]]

/-- oadrCancelReport.xml -/
def tCancelReport : Tmpl :=
  signed "oadrCancelReport" [requestId ["request_id"], leaf "ei:reportRequestID" ["report_request_id"],
    leaf "reportToFollow" ["report_to_follow"] .booleanformat [("xmlns", nsPyld)], leaf "ei:venID" ["ven_id"]]

/-- oadrCanceledOpt.xml -/
def tCanceledOpt : Tmpl := signed "oadrCanceledOpt" [eiResponse, leaf "ei:optID" ["opt_id"]]

/-- oadrCanceledPartyRegistration.xml -/
def tCanceledPartyRegistration : Tmpl :=
  signed "oadrCanceledPartyRegistration" [eiResponse, leaf "ei:registrationID" ["registration_id"], leaf "ei:venID" ["ven_id"]]

/-- The list of pending reports of two templates. -/
def pendingReports : Tmpl :=
  el "oadr:oadrPendingReports" [.loop "pending_report" ["pending_reports"] [leaf "ei:reportRequestID" ["pending_report", "report_request_id"]]]

/-- `{% if ven_id is defined and ven_id is not none %}<ei:venID>{{ ven_id }}</ei:venID>{% endif %}` -/
def optionalVen : Tmpl := ifGiven ["ven_id"] [leaf "ei:venID" ["ven_id"]]

/-- oadrCanceledReport.xml -/
def tCanceledReport : Tmpl := signed "oadrCanceledReport" [eiResponse, pendingReports, optionalVen]

/-- oadrCreatedReport.xml -/
def tCreatedReport : Tmpl := signed "oadrCreatedReport" [eiResponse, pendingReports, optionalVen]

/-- parts/emixInterface.xml; its last element is not closed. It is only included in loops over `target.emix_interface`, of which no part of the
    library knows anything. -/
def emixInterface : List Tmpl :=
  [.text ("<ei:marketContext></ei:marketContext><ei:serviceArea><FeatureCollection xmlns:gml=\"http://www.opengis.net/gml/3.2\">" ++
    "</ei:serviceArea>")]

/-- parts/eiTarget.xml -/
def tTarget : Tmpl :=
  el "ei:eiTarget" [
    ifGiven ["target", "emix_interfaces"] [.loop "emix_interface" ["target", "emix_interface"] emixInterface],
    ifGiven ["target", "group_id"] [leaf "ei:groupID" ["target", "group_id"]],
    ifGiven ["target", "group_name"] [leaf "ei:groupName" ["target", "group_name"]],
    ifGiven ["target", "resource_id"] [leaf "ei:resourceID" ["target", "resource_id"]],
    ifGiven ["target", "ven_id"] [leaf "ei:venID" ["target", "ven_id"]],
    ifGiven ["target", "party_id"] [leaf "ei:partyID" ["target", "party_id"]]]

/-- oadrCreateOpt.xml -/
def tCreateOpt : Tmpl :=
  signed "oadrCreateOpt" [
    leaf "ei:optID" ["opt_id"], leaf "ei:optType" ["opt_type"], leaf "ei:optReason" ["opt_reason"],
    ifGiven ["market_context"] [leaf "emix:marketContext" ["market_context"]],
    leaf "ei:venID" ["ven_id"],
    ifGiven ["vavailability"] [
      el "xcal:vavailability" [el "xcal:components" [
        .loop "component" ["vavailability", "components"] [
          el "xcal:available" [el "xcal:properties" [
            el "xcal:dtstart" [leaf "xcal:date-time" ["component", "dtstart"] .datetimeformat],
            el "xcal:duration" [leaf "xcal:duration" ["component", "duration"] .timedeltaformat]]]]]]],
    leaf "ei:createdDateTime" ["created_date_time"] .datetimeformat,
    requestId ["request_id"],
    ifGiven ["event_id"] [el "ei:qualifiedEventID" [leaf "ei:eventID" ["event_id"], leaf "ei:modificationNumber" ["modification_number"]]],
    .cond (.both (.given ["targets"]) (.nonEmpty ["targets"])) [.loop "target" ["targets"] [tTarget]] [.empty (.fixed "ei:eiTarget") []],
    ifGiven ["signal_target_mrid"] [el "oadr:oadrDeviceClass" [el "power:endDeviceAsset" [leaf "power:mrid" ["signal_target_mrid"]]]]]
    [("xmlns:emix", nsEmix), ("xmlns:power", nsPower), ("xmlns:xcal", nsXcal)]

/-- oadrCreatePartyRegistration.xml -/
def tCreatePartyRegistration : Tmpl :=
  signed "oadrCreatePartyRegistration" [
    requestId ["request_id"],
    ifGiven ["registration_id"] [leaf "ei:registrationID" ["registration_id"]],
    optionalVen,
    leaf "oadr:oadrProfileName" ["profile_name"], leaf "oadr:oadrTransportName" ["transport_name"],
    leaf "oadr:oadrTransportAddress" ["transport_address"], leaf "oadr:oadrReportOnly" ["report_only"] .booleanformat,
    leaf "oadr:oadrXmlSignature" ["xml_signature"] .booleanformat, leaf "oadr:oadrVenName" ["ven_name"],
    leaf "oadr:oadrHttpPullModel" ["http_pull_model"] .booleanformat]

/-- parts/oadrReportRequest.xml -/
def tReportRequest : Tmpl :=
  el "oadr:oadrReportRequest" [
    leaf "ei:reportRequestID" ["report_request", "report_request_id"],
    el "ei:reportSpecifier" [
      leaf "ei:reportSpecifierID" ["report_request", "report_specifier", "report_specifier_id"],
      el "xcal:granularity" [leaf "xcal:duration" ["report_request", "report_specifier", "granularity"] .timedeltaformat],
      ifGiven ["report_request", "report_specifier", "report_back_duration"] [
        el "ei:reportBackDuration" [leaf "xcal:duration" ["report_request", "report_specifier", "report_back_duration"] .timedeltaformat]],
      ifGiven ["report_request", "report_specifier", "report_interval"] [
        el "ei:reportInterval" [el "xcal:properties" [
          el "xcal:dtstart" [leaf "xcal:date-time" ["report_request", "report_specifier", "report_interval", "dtstart"] .datetimeformat],
          el "xcal:duration" [leaf "xcal:duration" ["report_request", "report_specifier", "report_interval", "duration"] .timedeltaformat]]]],
      .loop "specifier_payload" ["report_request", "report_specifier", "specifier_payloads"] [
        el "ei:specifierPayload" [leaf "ei:rID" ["specifier_payload", "r_id"], leaf "ei:readingType" ["specifier_payload", "reading_type"]]]]
      [("xmlns:xcal", nsXcal)]]

/-- oadrCreateReport.xml -/
def tCreateReport : Tmpl :=
  signed "oadrCreateReport" [requestId ["request_id"], .loop "report_request" ["report_requests"] [tReportRequest], leaf "ei:venID" ["ven_id"]]

/-- oadrRegisteredReport.xml -/
def tRegisteredReport : Tmpl :=
  signed "oadrRegisteredReport" [eiResponse, .loop "report_request" ["report_requests"] [tReportRequest], optionalVen]

/-- oadrCreatedEvent.xml -/
def tCreatedEvent : Tmpl :=
  signed "oadrCreatedEvent" [
    el "eiCreatedEvent" [
      el "ei:eiResponse" [
        leaf "ei:responseCode" ["response", "response_code"], leaf "ei:responseDescription" ["response", "response_description"],
        .cond (.both (.neg (.given ["event_responses"])) (.given ["response", "request_id"]))
          [requestId ["response", "request_id"]] [el "requestID" [] [("xmlns", nsPyld)]]],
      ifGiven ["event_responses"] [
        el "ei:eventResponses" [
          .loop "event_response" ["event_responses"] [
            el "ei:eventResponse" [
              leaf "ei:responseCode" ["event_response", "response_code"],
              ifGiven ["event_response", "response_description"] [
                leaf "ei:responseDescription" ["event_response", "response_description"]],
              requestId ["event_response", "request_id"],
              el "ei:qualifiedEventID" [
                leaf "ei:eventID" ["event_response", "event_id"], leaf "ei:modificationNumber" ["event_response", "modification_number"]],
              leaf "ei:optType" ["event_response", "opt_type"]]]]],
      leaf "ei:venID" ["ven_id"]] [("xmlns", nsPyld)]]

/-- oadrCreatedOpt.xml -/
def tCreatedOpt : Tmpl := signed "oadrCreatedOpt" [eiResponse, leaf "ei:optID" ["opt_id"]]

/-- oadrCreatedPartyRegistration.xml -/
def tCreatedPartyRegistration : Tmpl :=
  signed "oadrCreatedPartyRegistration" [
    eiResponse,
    .cond (.given ["registration_id"]) [leaf "ei:registrationID" ["registration_id"]] [.empty (.fixed "ei:registrationID") []],
    .cond (.given ["ven_id"]) [leaf "ei:venID" ["ven_id"]] [.empty (.fixed "ei:venID") []],
    leaf "ei:vtnID" ["vtn_id"],
    el "oadr:oadrProfiles" [
      .loop "profile" ["profiles"] [
        el "oadr:oadrProfile" [
          leaf "oadr:oadrProfileName" ["profile", "profile_name"],
          el "oadr:oadrTransports" [
            .loop "transport" ["profile", "transports"] [
              el "oadr:oadrTransport" [leaf "oadr:oadrTransportName" ["transport", "transport_name"]]]]]]],
    ifGiven ["requested_oadr_poll_freq"] [
      el "oadr:oadrRequestedOadrPollFreq" [leaf "duration" ["requested_oadr_poll_freq"] .timedeltaformat [("xmlns", nsXcal)]]]]

/-- parts/eiEventDescriptor.xml -/
def tEventDescriptor : Tmpl :=
  el "ei:eventDescriptor" [
    leaf "ei:eventID" ["event", "event_descriptor", "event_id"],
    leaf "ei:modificationNumber" ["event", "event_descriptor", "modification_number"],
    ifGiven ["event", "event_descriptor", "modification_date_time"] [
      leaf "ei:modificationDateTime" ["event", "event_descriptor", "modification_date_time"] .datetimeformat],
    ifGiven ["event", "event_descriptor", "modification_reason"] [
      leaf "ei:modificationReason" ["event", "event_descriptor", "modification_reason"]],
    .cond (.notNone ["event", "event_descriptor", "priority"]) [leaf "ei:priority" ["event", "event_descriptor", "priority"]] [],
    el "ei:eiMarketContext" [leaf "marketContext" ["event", "event_descriptor", "market_context"] .plain [("xmlns", nsEmix)]],
    leaf "ei:createdDateTime" ["event", "event_descriptor", "created_date_time"] .datetimeformat,
    leaf "ei:eventStatus" ["event", "event_descriptor", "event_status"],
    ifGiven ["event", "event_descriptor", "test_event"] [leaf "ei:testEvent" ["event", "event_descriptor", "test_event"] .booleanformat],
    ifGiven ["event", "event_descriptor", "vtn_comment"] [leaf "ei:vtnComment" ["event", "event_descriptor", "vtn_comment"]]]

/-- parts/eiActivePeriod.xml -/
def tActivePeriod : Tmpl :=
  el "ei:eiActivePeriod" [
    el "properties" [
      el "dtstart" [leaf "date-time" ["event", "active_period", "dtstart"] .datetimeformat],
      el "duration" [leaf "duration" ["event", "active_period", "duration"] .timedeltaformat],
      ifTrue ["event", "active_period", "tolerance"] [
        el "tolerance" [el "tolerate" [leaf "startafter" ["event", "active_period", "tolerance", "startafter"] .timedeltaformat]]],
      ifTrue ["event", "active_period", "notification_period"] [
        el "ei:x-eiNotification" [leaf "duration" ["event", "active_period", "notification_period"] .timedeltaformat]],
      ifTrue ["event", "active_period", "ramp_up_period"] [
        el "ei:x-eiRampUp" [leaf "duration" ["event", "active_period", "ramp_up_period"] .timedeltaformat]],
      ifTrue ["event", "active_period", "recovery_period"] [
        el "ei:x-eiRecovery" [leaf "duration" ["event", "active_period", "recovery_period"] .timedeltaformat]]] [("xmlns", nsXcal)],
    .empty (.fixed "components") [("xmlns", nsXcal)]]

/-- parts/eventSignalEmix.xml and parts/reportDescriptionEmix.xml, which differ in the variable only. -/
def tEmix (var : String) : Tmpl :=
  ifGiven [var, "measurement"] [
    .elem (.dynamic [var, "measurement", "ns"] [var, "measurement", "name"]) [("xmlns:scale", nsScale), ("xmlns:power", nsPower)] [
      .elem (.qualified [var, "measurement", "ns"] "itemDescription") [] [.out [var, "measurement", "description"] .plain],
      .elem (.qualified [var, "measurement", "ns"] "itemUnits") [] [.out [var, "measurement", "unit"] .plain],
      .cond (.truthy [var, "measurement", "pulse_factor"])
        [leaf "oadr:pulseFactor" [var, "measurement", "pulse_factor"]]
        [leaf "scale:siScaleCode" [var, "measurement", "scale"]],
      ifTrue [var, "measurement", "power_attributes"] [
        el "power:powerAttributes" [
          leaf "power:hertz" [var, "measurement", "power_attributes", "hertz"],
          leaf "power:voltage" [var, "measurement", "power_attributes", "voltage"],
          leaf "power:ac" [var, "measurement", "power_attributes", "ac"] .booleanformat]]]]

/-- parts/eiEventSignal.xml -/
def tEventSignal : Tmpl :=
  el "ei:eiEventSignal" [
    el "strm:intervals" [
      .loop "interval" ["event_signal", "intervals"] [
        el "ei:interval" [
          ifGiven ["interval", "dtstart"] [el "xcal:dtstart" [leaf "xcal:date-time" ["interval", "dtstart"] .datetimeformat]],
          ifGiven ["interval", "duration"] [el "xcal:duration" [leaf "xcal:duration" ["interval", "duration"] .timedeltaformat]],
          el "uid" [leaf "text" ["loop", "index0"]] [("xmlns", nsXcal)],
          el "ei:signalPayload" [el "ei:payloadFloat" [leaf "ei:value" ["interval", "signal_payload"]]]]]]
      [("xmlns:strm", nsStrm), ("xmlns:xcal", nsXcal)],
    leaf "ei:signalName" ["event_signal", "signal_name"],
    leaf "ei:signalType" ["event_signal", "signal_type"],
    leaf "ei:signalID" ["event_signal", "signal_id"],
    tEmix "event_signal",
    ifGiven ["event_signal", "current_value"] [
      el "ei:currentValue" [el "ei:payloadFloat" [leaf "ei:value" ["event_signal", "current_value"]]]]]

/-- One of the loops over all targets of parts/eiEventTarget.xml. -/
def tEventTargets (kind name : String) : Tmpl :=
  .loop "target" ["event", "targets"] [ifTrue ["target", kind] [leaf name ["target", kind]]]

/-- parts/eiEventTarget.xml -/
def tEventTarget : Tmpl :=
  el "ei:eiTarget" [
    .loop "target" ["event", "targets"] [
      ifTrue ["target", "emix_interfaces"] [.loop "emix_interface" ["target", "emix_interface"] emixInterface]],
    tEventTargets "group_id" "ei:groupID",
    tEventTargets "group_name" "ei:groupName",
    tEventTargets "resource_id" "ei:resourceID",
    tEventTargets "ven_id" "ei:venID",
    tEventTargets "party_id" "ei:partyID"]

/-- parts/eiEvent.xml. The file parts/eiReportRequest.xml, included for the report requests of an event, does not exist (and the element around
    it is closed by another name). -/
def tEvent : Tmpl :=
  el "oadr:oadrEvent" [
    el "ei:eiEvent" [
      tEventDescriptor,
      tActivePeriod,
      el "ei:eiEventSignals" [.loop "event_signal" ["event", "event_signals"] [tEventSignal]],
      ifTrue ["event", "report_requests"] [.loop "report_request" ["event", "report_requests"] [.missing]],
      ifGiven ["event", "targets"] [tEventTarget]],
    leaf "oadr:oadrResponseRequired" ["event", "response_required"]]

/-- oadrDistributeEvent.xml -/
def tDistributeEvent : Tmpl :=
  signed "oadrDistributeEvent" [
    ifGiven ["response"] [eiResponse],
    requestId ["request_id"],
    leaf "ei:vtnID" ["vtn_id"],
    .loop "event" ["events"] [tEvent]]

/-- oadrPoll.xml -/
def tPoll : Tmpl := signed "oadrPoll" [leaf "ei:venID" ["ven_id"]]

/-- oadrQueryRegistration.xml -/
def tQueryRegistration : Tmpl := signed "oadrQueryRegistration" [requestId ["request_id"]]

/-- parts/oadrReportDescription.xml -/
def tReportDescription : Tmpl :=
  el "oadr:oadrReportDescription" [
    leaf "ei:rID" ["report_description", "r_id"],
    .cond (.both (.truthy ["report_description", "report_subject"]) (.truthy ["report_description", "report_subject", "end_device_asset", "mrid"])) [
      el "ei:reportSubject" [
        el "power:endDeviceAsset" [leaf "power:mrid" ["report_description", "report_subject", "end_device_asset", "mrid"]]]] [],
    ifTrue ["report_description", "report_data_source"] [
      el "ei:reportDataSource" [
        ifTrue ["report_description", "report_data_source", "emix_interfaces"] [.loop "emix_interface" ["target", "emix_interface"] emixInterface],
        ifTrue ["report_description", "report_data_source", "group_id"] [leaf "ei:groupID" ["report_description", "report_data_source", "group_id"]],
        ifTrue ["report_description", "report_data_source", "group_name"] [
          leaf "ei:groupName" ["report_description", "report_data_source", "group_name"]],
        ifTrue ["report_description", "report_data_source", "resource_id"] [
          leaf "ei:resourceID" ["report_description", "report_data_source", "resource_id"]],
        ifTrue ["report_description", "report_data_source", "ven_id"] [leaf "ei:venID" ["report_description", "report_data_source", "ven_id"]],
        ifTrue ["report_description", "report_data_source", "party_id"] [leaf "ei:partyID" ["report_description", "report_data_source", "party_id"]]]],
    leaf "ei:reportType" ["report_description", "report_type"],
    tEmix "report_description",
    leaf "ei:readingType" ["report_description", "reading_type"],
    ifTrue ["report_description", "market_context"] [leaf "emix:marketContext" ["report_description", "market_context"]],
    ifTrue ["report_description", "sampling_rate"] [
      el "oadr:oadrSamplingRate" [
        leaf "oadr:oadrMinPeriod" ["report_description", "sampling_rate", "min_period"] .timedeltaformat,
        leaf "oadr:oadrMaxPeriod" ["report_description", "sampling_rate", "max_period"] .timedeltaformat,
        leaf "oadr:oadrOnChange" ["report_description", "sampling_rate", "on_change"] .booleanformat]]]
    [("xmlns:emix", nsEmix), ("xmlns:power", nsPower)]

/-- oadrRegisterReport.xml -/
def tRegisterReport : Tmpl :=
  signed "oadrRegisterReport" [
    requestId ["request_id"],
    .loop "report" ["reports"] [
      el "oadr:oadrReport" [
        ifGiven ["report", "duration"] [el "xcal:duration" [leaf "xcal:duration" ["report", "duration"] .timedeltaformat]],
        .cond (.both (.given ["report", "report_id"]) (.neg (.startsWith ["report", "report_name"] "METADATA")))
          [leaf "ei:eiReportID" ["report", "report_id"]] [],
        .loop "report_description" ["report", "report_descriptions"] [tReportDescription],
        .cond (.given ["report", "report_request_id"]) [leaf "ei:reportRequestID" ["report", "report_request_id"]]
          [el "ei:reportRequestID" [.text "0"]],
        leaf "ei:reportSpecifierID" ["report", "report_specifier_id"],
        leaf "ei:reportName" ["report", "report_name"],
        leaf "ei:createdDateTime" ["report", "created_date_time"] .datetimeformat] [("xmlns:xcal", nsXcal), ("xmlns:strm", nsStrm)]],
    optionalVen]

/-- oadrRequestEvent.xml -/
def tRequestEvent : Tmpl :=
  signed "oadrRequestEvent" [
    el "eiRequestEvent" [
      leaf "requestID" ["request_id"], leaf "ei:venID" ["ven_id"],
      ifGiven ["reply_limit"] [leaf "replyLimit" ["reply_limit"]]] [("xmlns", nsPyld)]]

/-- oadrRequestReregistration.xml -/
def tRequestReregistration : Tmpl := signed "oadrRequestReregistration" [leaf "ei:venID" ["ven_id"]]

/-- oadrResponse.xml -/
def tResponse : Tmpl :=
  signed "oadrResponse" [
    el "ei:eiResponse" [
      leaf "ei:responseCode" ["response", "response_code"], leaf "ei:responseDescription" ["response", "response_description"],
      .cond (.given ["response", "request_id"]) [requestId ["response", "request_id"]] [.empty (.fixed "requestID") [("xmlns", nsPyld)]]],
    leaf "ei:venID" ["ven_id"]]

/-- oadrUpdateReport.xml -/
def tUpdateReport : Tmpl :=
  signed "oadrUpdateReport" [
    leaf "pyld:requestID" ["request_id"],
    ifTrue ["reports"] [
      .loop "report" ["reports"] [
        el "oadr:oadrReport" [
          ifGiven ["report", "dtstart"] [el "xcal:dtstart" [leaf "xcal:date-time" ["report", "dtstart"] .datetimeformat]],
          ifTrue ["report", "intervals"] [
            el "strm:intervals" [
              .loop "interval" ["report", "intervals"] [
                el "ei:interval" [
                  el "xcal:dtstart" [leaf "xcal:date-time" ["interval", "dtstart"] .datetimeformat],
                  ifGiven ["interval", "duration"] [el "xcal:duration" [leaf "xcal:duration" ["interval", "duration"] .timedeltaformat]],
                  el "oadr:oadrReportPayload" [
                    leaf "ei:rID" ["interval", "report_payload", "r_id"],
                    ifGiven ["interval", "report_payload", "confidence"] [leaf "ei:confidence" ["interval", "report_payload", "confidence"]],
                    ifGiven ["interval", "report_payload", "accuracy"] [leaf "ei:accuracy" ["interval", "report_payload", "accuracy"]],
                    el "ei:payloadFloat" [leaf "ei:value" ["interval", "report_payload", "value"]],
                    ifGiven ["interval", "report_payload", "data_quality"] [
                      leaf "oadr:oadrDataQuality" ["interval", "report_payload", "data_quality"]]]]]]
              [("xmlns:strm", nsStrm), ("xmlns:xcal", nsXcal)]],
          leaf "ei:eiReportID" ["report", "report_id"],
          ifTrue ["report", "report_descriptions"] [.loop "report_description" ["report", "report_descriptions"] [tReportDescription]],
          leaf "ei:reportRequestID" ["report", "report_request_id"],
          leaf "ei:reportSpecifierID" ["report", "report_specifier_id"],
          ifTrue ["report", "report_name"] [leaf "ei:reportName" ["report", "report_name"]],
          leaf "ei:createdDateTime" ["report", "created_date_time"] .datetimeformat] [("xmlns:xcal", nsXcal)]]],
    optionalVen] [] [("xmlns:pyld", nsPyld), ("xmlns:emix", nsEmix)]

/-- oadrUpdatedReport.xml -/
def tUpdatedReport : Tmpl :=
  signed "oadrUpdatedReport" [
    el "ei:eiResponse" [
      leaf "ei:responseCode" ["response", "response_code"], leaf "ei:responseDescription" ["response", "response_description"],
      .cond (.given ["response", "request_id"]) [leaf "pyld:requestID" ["response", "request_id"]] [.empty (.fixed "pyld:requestID") []]],
    ifGiven ["cancel_report"] [
      el "oadr:oadrCancelReport" [
        leaf "pyld:requestID" ["cancel_report", "request_id"],
        .loop "report_request_id" ["cancel_report", "report_request_id"] [leaf "ei:reportRequestID" ["report_request_id"]],
        leaf "pyld:reportToFollow" ["cancel_report", "report_to_follow"] .booleanformat,
        ifTrue ["cancel_report", "ven_id"] [leaf "ei:venID" ["cancel_report", "ven_id"]]]],
    optionalVen] [("xmlns:pyld", nsPyld)]

/-- `TEMPLATES.get_template(f'{message_type}.xml')` (openleadr/messaging.py:70). -/
def templates : List (String × Tmpl) :=
  [("oadrCancelOpt", tCancelOpt), ("oadrCancelPartyRegistration", tCancelPartyRegistration), ("oadrCancelReport", tCancelReport),
   ("oadrCanceledOpt", tCanceledOpt), ("oadrCanceledPartyRegistration", tCanceledPartyRegistration), ("oadrCanceledReport", tCanceledReport),
   ("oadrCreateOpt", tCreateOpt), ("oadrCreatePartyRegistration", tCreatePartyRegistration), ("oadrCreateReport", tCreateReport),
   ("oadrCreatedEvent", tCreatedEvent), ("oadrCreatedOpt", tCreatedOpt), ("oadrCreatedPartyRegistration", tCreatedPartyRegistration),
   ("oadrCreatedReport", tCreatedReport), ("oadrDistributeEvent", tDistributeEvent), ("oadrPoll", tPoll),
   ("oadrQueryRegistration", tQueryRegistration), ("oadrRegisterReport", tRegisterReport), ("oadrRegisteredReport", tRegisteredReport),
   ("oadrRequestEvent", tRequestEvent), ("oadrRequestReregistration", tRequestReregistration), ("oadrResponse", tResponse),
   ("oadrUpdateReport", tUpdateReport), ("oadrUpdatedReport", tUpdatedReport)]

end Openleadr
