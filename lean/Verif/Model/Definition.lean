import Verif.Model.Types

/-!
GENERATED by tools/gen_definition.py from /repo/zigpy_cc/definition.py:14-2624
(the file is parsed as text; nothing of the repository is run).
One `Cmd` literal per Python dict, in source order, with its source lines.
-/

namespace Zcc

/-- `Definition[Subsystem.SYS]`, definition.py:15-417 -/
def defSYS : List Cmd := [
  -- definition.py:16-21
  { name := "resetReq", id := 0, type := .AREQ,
    request := [("type", .UINT8)],
    response := none },
  -- definition.py:22-28
  { name := "ping", id := 1, type := .SREQ,
    request := [],
    response := some [("capabilities", .UINT16)] },
  -- definition.py:29-42
  { name := "version", id := 2, type := .SREQ,
    request := [],
    response := some [("transportrev", .UINT8), ("product", .UINT8), ("majorrel", .UINT8), ("minorrel", .UINT8), ("maintrel", .UINT8), ("revision", .UINT32)] },
  -- definition.py:43-49
  { name := "setExtAddr", id := 3, type := .SREQ,
    request := [("extaddress", .IEEEADDR)],
    response := some [("status", .UINT8)] },
  -- definition.py:50-56
  { name := "getExtAddr", id := 4, type := .SREQ,
    request := [],
    response := some [("extaddress", .IEEEADDR)] },
  -- definition.py:57-70
  { name := "ramRead", id := 5, type := .SREQ,
    request := [("address", .UINT16), ("len", .UINT8)],
    response := some [("status", .UINT8), ("len", .UINT8), ("value", .BUFFER)] },
  -- definition.py:71-81
  { name := "ramWrite", id := 6, type := .SREQ,
    request := [("address", .UINT16), ("len", .UINT8), ("value", .BUFFER)],
    response := some [("status", .UINT8)] },
  -- definition.py:82-93
  { name := "osalNvItemInit", id := 7, type := .SREQ,
    request := [("id", .UINT16), ("len", .UINT16), ("initlen", .UINT8), ("initvalue", .BUFFER)],
    response := some [("status", .UINT8)] },
  -- definition.py:94-107
  { name := "osalNvRead", id := 8, type := .SREQ,
    request := [("id", .UINT16), ("offset", .UINT8)],
    response := some [("status", .UINT8), ("len", .UINT8), ("value", .BUFFER)] },
  -- definition.py:108-119
  { name := "osalNvWrite", id := 9, type := .SREQ,
    request := [("id", .UINT16), ("offset", .UINT8), ("len", .UINT8), ("value", .BUFFER)],
    response := some [("status", .UINT8)] },
  -- definition.py:120-129
  { name := "osalStartTimer", id := 10, type := .SREQ,
    request := [("id", .UINT8), ("timeout", .UINT16)],
    response := some [("status", .UINT8)] },
  -- definition.py:130-136
  { name := "osalStopTimer", id := 11, type := .SREQ,
    request := [("id", .UINT8)],
    response := some [("status", .UINT8)] },
  -- definition.py:137-143
  { name := "random", id := 12, type := .SREQ,
    request := [],
    response := some [("value", .UINT16)] },
  -- definition.py:144-153
  { name := "adcRead", id := 13, type := .SREQ,
    request := [("channel", .UINT8), ("resolution", .UINT8)],
    response := some [("value", .UINT16)] },
  -- definition.py:154-163
  { name := "gpio", id := 14, type := .SREQ,
    request := [("operation", .UINT8), ("value", .UINT8)],
    response := some [("value", .UINT8)] },
  -- definition.py:164-173
  { name := "stackTune", id := 15, type := .SREQ,
    request := [("operation", .UINT8), ("value", .INT8)],
    response := some [("value", .UINT8)] },
  -- definition.py:174-188
  { name := "setTime", id := 16, type := .SREQ,
    request := [("utc", .UINT32), ("hour", .UINT8), ("minute", .UINT8), ("second", .UINT8), ("month", .UINT8), ("day", .UINT8), ("year", .UINT16)],
    response := some [("status", .UINT8)] },
  -- definition.py:189-203
  { name := "getTime", id := 17, type := .SREQ,
    request := [],
    response := some [("utc", .UINT32), ("hour", .UINT8), ("minute", .UINT8), ("second", .UINT8), ("month", .UINT8), ("day", .UINT8), ("year", .UINT16)] },
  -- definition.py:204-213
  { name := "osalNvDelete", id := 18, type := .SREQ,
    request := [("id", .UINT16), ("len", .UINT16)],
    response := some [("status", .UINT8)] },
  -- definition.py:214-220
  { name := "osalNvLength", id := 19, type := .SREQ,
    request := [("id", .UINT16)],
    response := some [("length", .UINT16)] },
  -- definition.py:221-227
  { name := "setTxPower", id := 20, type := .SREQ,
    request := [("level", .UINT8)],
    response := some [("txpower", .UINT8)] },
  -- definition.py:228-238
  { name := "jammerParameters", id := 21, type := .SREQ,
    request := [("jmrcntievents", .UINT16), ("jmrhinoiselvl", .UINT8), ("jmrdetectperiod", .UINT32)],
    response := some [("status", .UINT8)] },
  -- definition.py:239-245
  { name := "snifferParameters", id := 22, type := .SREQ,
    request := [("param", .UINT8)],
    response := some [("status", .UINT8)] },
  -- definition.py:246-252
  { name := "zdiagsInitStats", id := 23, type := .SREQ,
    request := [],
    response := some [("status", .UINT8)] },
  -- definition.py:253-259
  { name := "zdiagsClearStats", id := 24, type := .SREQ,
    request := [("clearnv", .UINT8)],
    response := some [("sysclock", .UINT32)] },
  -- definition.py:260-266
  { name := "zdiagsGetStats", id := 25, type := .SREQ,
    request := [("attributeid", .UINT16)],
    response := some [("attributevalue", .UINT32)] },
  -- definition.py:267-273
  { name := "zdiagsRestoreStatsNv", id := 26, type := .SREQ,
    request := [],
    response := some [("status", .UINT8)] },
  -- definition.py:274-280
  { name := "zdiagsSaveStatsToNv", id := 27, type := .SREQ,
    request := [],
    response := some [("sysclock", .UINT32)] },
  -- definition.py:281-294
  { name := "osalNvReadExt", id := 28, type := .SREQ,
    request := [("id", .UINT16), ("offset", .UINT16)],
    response := some [("status", .UINT8), ("len", .UINT8), ("value", .BUFFER)] },
  -- definition.py:295-306
  { name := "osalNvWriteExt", id := 29, type := .SREQ,
    request := [("id", .UINT16), ("offset", .UINT16), ("len", .UINT16), ("value", .BUFFER)],
    response := some [("status", .UINT8)] },
  -- definition.py:307-318
  { name := "nvCreate", id := 48, type := .SREQ,
    request := [("sysid", .UINT8), ("itemid", .UINT16), ("subid", .UINT16), ("len", .UINT32)],
    response := some [("status", .UINT8)] },
  -- definition.py:319-329
  { name := "nvDelete", id := 49, type := .SREQ,
    request := [("sysid", .UINT8), ("itemid", .UINT16), ("subid", .UINT16)],
    response := some [("status", .UINT8)] },
  -- definition.py:330-340
  { name := "nvLength", id := 50, type := .SREQ,
    request := [("sysid", .UINT8), ("itemid", .UINT16), ("subid", .UINT16)],
    response := some [("len", .UINT8)] },
  -- definition.py:341-357
  { name := "nvRead", id := 51, type := .SREQ,
    request := [("sysid", .UINT8), ("itemid", .UINT16), ("subid", .UINT16), ("offset", .UINT16), ("len", .UINT8)],
    response := some [("status", .UINT8), ("len", .UINT8), ("value", .BUFFER)] },
  -- definition.py:358-371
  { name := "nvWrite", id := 52, type := .SREQ,
    request := [("sysid", .UINT8), ("itemid", .UINT16), ("subid", .UINT16), ("offset", .UINT16), ("len", .UINT8), ("value", .BUFFER)],
    response := some [("status", .UINT8)] },
  -- definition.py:372-384
  { name := "nvUpdate", id := 53, type := .SREQ,
    request := [("sysid", .UINT8), ("itemid", .UINT16), ("subid", .UINT16), ("len", .UINT8), ("value", .BUFFER)],
    response := some [("status", .UINT8)] },
  -- definition.py:385-391
  { name := "nvCompact", id := 54, type := .SREQ,
    request := [("threshold", .UINT16)],
    response := some [("status", .UINT8)] },
  -- definition.py:392-404
  { name := "resetInd", id := 128, type := .AREQ,
    request := [("reason", .UINT8), ("transportrev", .UINT8), ("productid", .UINT8), ("majorrel", .UINT8), ("minorrel", .UINT8), ("hwrev", .UINT8)],
    response := none },
  -- definition.py:405-410
  { name := "osalTimerExpired", id := 129, type := .AREQ,
    request := [("id", .UINT8)],
    response := none },
  -- definition.py:411-416
  { name := "jammerInd", id := 130, type := .AREQ,
    request := [("jammerind", .UINT8)],
    response := none }]

/-- `Definition[Subsystem.MAC]`, definition.py:418-836 -/
def defMAC : List Cmd := [
  -- definition.py:419-425
  { name := "resetReq", id := 1, type := .SREQ,
    request := [("setdefault", .UINT8)],
    response := some [("status", .UINT8)] },
  -- definition.py:426-432
  { name := "init", id := 2, type := .SREQ,
    request := [],
    response := some [("status", .UINT8)] },
  -- definition.py:433-457
  { name := "startReq", id := 3, type := .SREQ,
    request := [("starttime", .UINT32), ("panid", .UINT16), ("logicalchannel", .UINT8), ("channelpage", .UINT8), ("beaconorder", .UINT8), ("superframeorder", .UINT8), ("pancoordinator", .UINT8), ("batterylifeext", .UINT8), ("coordrealignment", .UINT8), ("realignkeysource", .BUFFER), ("realignsecuritylevel", .UINT8), ("realignkeyidmode", .UINT8), ("realignkeyindex", .UINT8), ("beaconkeysource", .BUFFER), ("beaconsecuritylevel", .UINT8), ("beaconkeyidmode", .UINT8), ("beaconkeyindex", .UINT8)],
    response := some [("status", .UINT8)] },
  -- definition.py:458-468
  { name := "syncReq", id := 4, type := .SREQ,
    request := [("logicalchannel", .UINT8), ("channelpage", .UINT8), ("trackbeacon", .UINT8)],
    response := some [("status", .UINT8)] },
  -- definition.py:469-490
  { name := "dataReq", id := 5, type := .SREQ,
    request := [("destaddressmode", .UINT8), ("destaddress", .IEEEADDR), ("destpanid", .UINT16), ("srcaddressmode", .UINT8), ("handle", .UINT8), ("txoption", .UINT8), ("logicalchannel", .UINT8), ("power", .UINT8), ("keysource", .BUFFER), ("securitylevel", .UINT8), ("keyidmode", .UINT8), ("keyindex", .UINT8), ("msdulength", .UINT8), ("msdu", .BUFFER)],
    response := some [("status", .UINT8)] },
  -- definition.py:491-508
  { name := "associateReq", id := 6, type := .SREQ,
    request := [("logicalchannel", .UINT8), ("channelpage", .UINT8), ("coordaddressmode", .UINT8), ("coordaddress", .IEEEADDR), ("coordpanid", .UINT16), ("capabilityinformation", .UINT8), ("keysource", .BUFFER), ("securitylevel", .UINT8), ("keyidmode", .UINT8), ("keyindex", .UINT8)],
    response := some [("status", .UINT8)] },
  -- definition.py:509-525
  { name := "disassociateReq", id := 7, type := .SREQ,
    request := [("deviceaddressmode", .UINT8), ("deviceaddress", .IEEEADDR), ("devicepanid", .UINT16), ("disassociatereason", .UINT8), ("txindirect", .UINT8), ("keysource", .BUFFER), ("securitylevel", .UINT8), ("keyidmode", .UINT8), ("keyindex", .UINT8)],
    response := some [("status", .UINT8)] },
  -- definition.py:526-535
  { name := "getReq", id := 8, type := .SREQ,
    request := [("attribute", .UINT8)],
    response := some [("status", .UINT8), ("data", .BUFFER16)] },
  -- definition.py:536-545
  { name := "setReq", id := 9, type := .SREQ,
    request := [("attribute", .UINT8), ("attributevalue", .BUFFER)],
    response := some [("status", .UINT8)] },
  -- definition.py:546-562
  { name := "scanReq", id := 12, type := .SREQ,
    request := [("scanchannels", .UINT32), ("scantype", .UINT8), ("scanduration", .UINT8), ("channelpage", .UINT8), ("maxresults", .UINT8), ("keysource", .BUFFER), ("securitylevel", .UINT8), ("keyidmode", .UINT8), ("keyindex", .UINT8)],
    response := some [("status", .UINT8)] },
  -- definition.py:563-577
  { name := "pollReq", id := 13, type := .SREQ,
    request := [("coordaddressmode", .UINT8), ("coordaddress", .IEEEADDR), ("coordpanid", .UINT16), ("keysource", .BUFFER), ("securitylevel", .UINT8), ("keyidmode", .UINT8), ("keyindex", .UINT8)],
    response := some [("status", .UINT8)] },
  -- definition.py:578-584
  { name := "purgeReq", id := 14, type := .SREQ,
    request := [("msduhandle", .UINT8)],
    response := some [("status", .UINT8)] },
  -- definition.py:585-591
  { name := "setRxGainReq", id := 15, type := .SREQ,
    request := [("mode", .UINT8)],
    response := some [("status", .UINT8)] },
  -- definition.py:592-602
  { name := "securityGetReq", id := 48, type := .SREQ,
    request := [("attribute", .UINT8), ("index1", .UINT8), ("index2", .UINT8)],
    response := some [("status", .UINT8)] },
  -- definition.py:603-612
  { name := "securitySetReq", id := 49, type := .SREQ,
    request := [("attribute", .UINT8), ("attributevalue", .BUFFER)],
    response := some [("status", .UINT8)] },
  -- definition.py:613-623
  { name := "associateRsp", id := 80, type := .SREQ,
    request := [("extaddr", .IEEEADDR), ("assocshortaddress", .UINT16), ("assocstatus", .UINT8)],
    response := some [("status", .UINT8)] },
  -- definition.py:624-634
  { name := "orphanRsp", id := 81, type := .SREQ,
    request := [("extaddr", .IEEEADDR), ("assocshortaddress", .UINT16), ("associatedmember", .UINT8)],
    response := some [("status", .UINT8)] },
  -- definition.py:635-649
  { name := "syncLossInd", id := 128, type := .AREQ,
    request := [("status", .UINT8), ("panid", .UINT16), ("logicalchannel", .UINT8), ("channelpage", .UINT8), ("keysource", .BUFFER8), ("securitylevel", .UINT8), ("keyidmode", .UINT8), ("keyindex", .UINT8)],
    response := none },
  -- definition.py:650-662
  { name := "associateInd", id := 129, type := .AREQ,
    request := [("deviceextendedaddress", .IEEEADDR), ("capabilities", .UINT8), ("keysource", .BUFFER8), ("securitylevel", .UINT8), ("keyidmode", .UINT8), ("keyindex", .UINT8)],
    response := none },
  -- definition.py:663-675
  { name := "associateCnf", id := 130, type := .AREQ,
    request := [("status", .UINT8), ("deviceshortaddress", .UINT16), ("keysource", .BUFFER8), ("securitylevel", .UINT8), ("keyidmode", .UINT8), ("keyindex", .UINT8)],
    response := none },
  -- definition.py:676-703
  { name := "beaconNotifyInd", id := 131, type := .AREQ,
    request := [("bsn", .UINT8), ("timestamp", .UINT32), ("coordinatoraddressmode", .UINT8), ("coordinatorextendedaddress", .IEEEADDR), ("panid", .UINT16), ("superframespec", .UINT16), ("logicalchannel", .UINT8), ("gtspermit", .UINT8), ("linkquality", .UINT8), ("securityfailure", .UINT8), ("keysource", .BUFFER8), ("securitylevel", .UINT8), ("keyidmode", .UINT8), ("keyindex", .UINT8), ("pendingaddrspec", .UINT8), ("addresslist", .BUFFER32), ("sdulength", .UINT8), ("nsdu", .BUFFER)],
    response := none },
  -- definition.py:704-714
  { name := "dataCnf", id := 132, type := .AREQ,
    request := [("status", .UINT8), ("handle", .UINT8), ("timestamp", .UINT32), ("timestamp2", .UINT16)],
    response := none },
  -- definition.py:715-739
  { name := "dataInd", id := 133, type := .AREQ,
    request := [("srcaddrmode", .UINT8), ("srcaddr", .IEEEADDR), ("dstaddrmode", .UINT8), ("dstaddr", .IEEEADDR), ("timestamp", .UINT32), ("timestamp2", .UINT16), ("srcpanid", .UINT16), ("dstpanid", .UINT16), ("linkquality", .UINT8), ("correlation", .UINT8), ("rssi", .UINT8), ("dsn", .UINT8), ("keysource", .BUFFER8), ("securitylevel", .UINT8), ("keyidmode", .UINT8), ("keyindex", .UINT8), ("length", .UINT8), ("data", .BUFFER)],
    response := none },
  -- definition.py:740-752
  { name := "disassociateInd", id := 134, type := .AREQ,
    request := [("extendedaddress", .IEEEADDR), ("disassociatereason", .UINT8), ("keysource", .BUFFER8), ("securitylevel", .UINT8), ("keyidmode", .UINT8), ("keyindex", .UINT8)],
    response := none },
  -- definition.py:753-763
  { name := "disassociateCnf", id := 135, type := .AREQ,
    request := [("status", .UINT8), ("deviceaddrmode", .UINT8), ("deviceaddr", .IEEEADDR), ("devicepanid", .UINT16)],
    response := none },
  -- definition.py:764-775
  { name := "orphanInd", id := 138, type := .AREQ,
    request := [("extendedaddr", .IEEEADDR), ("keysource", .BUFFER8), ("securitylevel", .UINT8), ("keyidmode", .UINT8), ("keyindex", .UINT8)],
    response := none },
  -- definition.py:776-781
  { name := "pollCnf", id := 139, type := .AREQ,
    request := [("status", .UINT8)],
    response := none },
  -- definition.py:782-796
  { name := "scanCnf", id := 140, type := .AREQ,
    request := [("status", .UINT8), ("ed", .UINT8), ("scantype", .UINT8), ("channelpage", .UINT8), ("unscannedchannellist", .UINT32), ("resultlistcount", .UINT8), ("resultlistmaxlength", .UINT8), ("resultlist", .BUFFER)],
    response := none },
  -- definition.py:797-814
  { name := "commStatusInd", id := 141, type := .AREQ,
    request := [("status", .UINT8), ("srcaddrmode", .UINT8), ("srcaddr", .IEEEADDR), ("dstaddrmode", .UINT8), ("dstaddr", .IEEEADDR), ("devicepanid", .UINT16), ("reason", .UINT8), ("keysource", .BUFFER8), ("securitylevel", .UINT8), ("keyidmode", .UINT8), ("keyindex", .UINT8)],
    response := none },
  -- definition.py:815-820
  { name := "startCnf", id := 142, type := .AREQ,
    request := [("status", .UINT8)],
    response := none },
  -- definition.py:821-826
  { name := "rxEnableCnf", id := 143, type := .AREQ,
    request := [("status", .UINT8)],
    response := none },
  -- definition.py:827-835
  { name := "purgeCnf", id := 144, type := .AREQ,
    request := [("status", .UINT8), ("handle", .UINT8)],
    response := none }]

/-- `Definition[Subsystem.AF]`, definition.py:837-1037 -/
def defAF : List Cmd := [
  -- definition.py:838-854
  { name := "register", id := 0, type := .SREQ,
    request := [("endpoint", .UINT8), ("appprofid", .UINT16), ("appdeviceid", .UINT16), ("appdevver", .UINT8), ("latencyreq", .UINT8), ("appnuminclusters", .UINT8), ("appinclusterlist", .LIST_UINT16), ("appnumoutclusters", .UINT8), ("appoutclusterlist", .LIST_UINT16)],
    response := some [("status", .UINT8)] },
  -- definition.py:855-871
  { name := "dataRequest", id := 1, type := .SREQ,
    request := [("dstaddr", .UINT16), ("destendpoint", .UINT8), ("srcendpoint", .UINT8), ("clusterid", .UINT16), ("transid", .UINT8), ("options", .UINT8), ("radius", .UINT8), ("len", .UINT8), ("data", .BUFFER)],
    response := some [("status", .UINT8)] },
  -- definition.py:872-890
  { name := "dataRequestExt", id := 2, type := .SREQ,
    request := [("dstaddrmode", .UINT8), ("dstaddr", .IEEEADDR), ("destendpoint", .UINT8), ("dstpanid", .UINT16), ("srcendpoint", .UINT8), ("clusterid", .UINT16), ("transid", .UINT8), ("options", .UINT8), ("radius", .UINT8), ("len", .UINT16), ("data", .BUFFER)],
    response := some [("status", .UINT8)] },
  -- definition.py:891-909
  { name := "dataRequestSrcRtg", id := 3, type := .SREQ,
    request := [("dstaddr", .UINT16), ("destendpoint", .UINT8), ("srcendpoint", .UINT8), ("clusterid", .UINT16), ("transid", .UINT8), ("options", .UINT8), ("radius", .UINT8), ("relaycount", .UINT8), ("relaylist", .LIST_UINT16), ("len", .UINT8), ("data", .BUFFER)],
    response := some [("status", .UINT8)] },
  -- definition.py:910-916
  { name := "delete", id := 4, type := .SREQ,
    request := [("endpoint", .UINT8)],
    response := some [("status", .UINT8)] },
  -- definition.py:917-926
  { name := "interPanCtl", id := 16, type := .SREQ,
    request := [("cmd", .UINT8), ("data", .BUFFER)],
    response := some [("status", .UINT8)] },
  -- definition.py:927-937
  { name := "dataStore", id := 17, type := .SREQ,
    request := [("index", .UINT16), ("length", .UINT8), ("data", .BUFFER)],
    response := some [("status", .UINT8)] },
  -- definition.py:938-952
  { name := "dataRetrieve", id := 18, type := .SREQ,
    request := [("timestamp", .UINT32), ("index", .UINT16), ("length", .UINT8)],
    response := some [("status", .UINT8), ("length", .UINT8), ("data", .BUFFER)] },
  -- definition.py:953-963
  { name := "apsfConfigSet", id := 19, type := .SREQ,
    request := [("endpoint", .UINT8), ("framedelay", .UINT8), ("windowsize", .UINT8)],
    response := some [("status", .UINT8)] },
  -- definition.py:964-974
  { name := "apsfConfigGet", id := 20, type := .SREQ,
    request := [("endpoint", .UINT8)],
    response := some [("framedelay", .UINT8), ("windowsize", .UINT8), ("nomean", .UINT8)] },
  -- definition.py:975-984
  { name := "dataConfirm", id := 128, type := .AREQ,
    request := [("status", .UINT8), ("endpoint", .UINT8), ("transid", .UINT8)],
    response := none },
  -- definition.py:985-1003
  { name := "incomingMsg", id := 129, type := .AREQ,
    request := [("groupid", .UINT16), ("clusterid", .UINT16), ("srcaddr", .UINT16), ("srcendpoint", .UINT8), ("dstendpoint", .UINT8), ("wasbroadcast", .UINT8), ("linkquality", .UINT8), ("securityuse", .UINT8), ("timestamp", .UINT32), ("transseqnumber", .UINT8), ("len", .UINT8), ("data", .BUFFER)],
    response := none },
  -- definition.py:1004-1024
  { name := "incomingMsgExt", id := 130, type := .AREQ,
    request := [("groupid", .UINT16), ("clusterid", .UINT16), ("srcaddrmode", .UINT8), ("srcaddr", .IEEEADDR), ("srcendpoint", .UINT8), ("srcpanid", .UINT16), ("dstendpoint", .UINT8), ("wasbroadcast", .UINT8), ("linkquality", .UINT8), ("securityuse", .UINT8), ("timestamp", .UINT32), ("transseqnumber", .UINT8), ("len", .UINT16), ("data", .BUFFER)],
    response := none },
  -- definition.py:1025-1036
  { name := "reflectError", id := 131, type := .AREQ,
    request := [("status", .UINT8), ("endpoint", .UINT8), ("transid", .UINT8), ("dstaddrmode", .UINT8), ("dstaddr", .UINT16)],
    response := none }]

/-- `Definition[Subsystem.ZDO]`, definition.py:1038-2019 -/
def defZDO : List Cmd := [
  -- definition.py:1039-1049
  { name := "nwkAddrReq", id := 0, type := .SREQ,
    request := [("ieeeaddr", .IEEEADDR), ("reqtype", .UINT8), ("startindex", .UINT8)],
    response := some [("status", .UINT8)] },
  -- definition.py:1050-1060
  { name := "ieeeAddrReq", id := 1, type := .SREQ,
    request := [("shortaddr", .UINT16), ("reqtype", .UINT8), ("startindex", .UINT8)],
    response := some [("status", .UINT8)] },
  -- definition.py:1061-1070
  { name := "nodeDescReq", id := 2, type := .SREQ,
    request := [("dstaddr", .UINT16), ("nwkaddrofinterest", .UINT16)],
    response := some [("status", .UINT8)] },
  -- definition.py:1071-1080
  { name := "powerDescReq", id := 3, type := .SREQ,
    request := [("dstaddr", .UINT16), ("nwkaddrofinterest", .UINT16)],
    response := some [("status", .UINT8)] },
  -- definition.py:1081-1091
  { name := "simpleDescReq", id := 4, type := .SREQ,
    request := [("dstaddr", .UINT16), ("nwkaddrofinterest", .UINT16), ("endpoint", .UINT8)],
    response := some [("status", .UINT8)] },
  -- definition.py:1092-1101
  { name := "activeEpReq", id := 5, type := .SREQ,
    request := [("dstaddr", .UINT16), ("nwkaddrofinterest", .UINT16)],
    response := some [("status", .UINT8)] },
  -- definition.py:1102-1116
  { name := "matchDescReq", id := 6, type := .SREQ,
    request := [("dstaddr", .UINT16), ("nwkaddrofinterest", .UINT16), ("profileid", .UINT16), ("numinclusters", .UINT8), ("inclusterlist", .LIST_UINT16), ("numoutclusters", .UINT8), ("outclusterlist", .LIST_UINT16)],
    response := some [("status", .UINT8)] },
  -- definition.py:1117-1126
  { name := "complexDescReq", id := 7, type := .SREQ,
    request := [("dstaddr", .UINT16), ("nwkaddrofinterest", .UINT16)],
    response := some [("status", .UINT8)] },
  -- definition.py:1127-1136
  { name := "userDescReq", id := 8, type := .SREQ,
    request := [("dstaddr", .UINT16), ("nwkaddrofinterest", .UINT16)],
    response := some [("status", .UINT8)] },
  -- definition.py:1137-1147
  { name := "endDeviceAnnce", id := 10, type := .SREQ,
    request := [("nwkaddr", .UINT16), ("ieeeaddr", .IEEEADDR), ("capability", .UINT8)],
    response := some [("status", .UINT8)] },
  -- definition.py:1148-1159
  { name := "userDescSet", id := 11, type := .SREQ,
    request := [("dstaddr", .UINT16), ("nwkaddrofinterest", .UINT16), ("descriptor_len", .UINT8), ("userdescriptor", .BUFFER)],
    response := some [("status", .UINT8)] },
  -- definition.py:1160-1166
  { name := "serverDiscReq", id := 12, type := .SREQ,
    request := [("servermask", .UINT16)],
    response := some [("status", .UINT8)] },
  -- definition.py:1167-1183
  { name := "endDeviceBindReq", id := 32, type := .SREQ,
    request := [("dstaddr", .UINT16), ("localcoord", .UINT16), ("localieee", .IEEEADDR), ("endpoint", .UINT8), ("profileid", .UINT16), ("numinclusters", .UINT8), ("inclusterlist", .LIST_UINT16), ("numoutclusters", .UINT8), ("outclusterlist", .LIST_UINT16)],
    response := some [("status", .UINT8)] },
  -- definition.py:1184-1198
  { name := "bindReq", id := 33, type := .SREQ,
    request := [("dstaddr", .UINT16), ("srcaddr", .IEEEADDR), ("srcendpoint", .UINT8), ("clusterid", .UINT16), ("dstaddrmode", .UINT8), ("dstaddress", .IEEEADDR), ("dstendpoint", .UINT8)],
    response := some [("status", .UINT8)] },
  -- definition.py:1199-1213
  { name := "unbindReq", id := 34, type := .SREQ,
    request := [("dstaddr", .UINT16), ("srcaddr", .IEEEADDR), ("srcendpoint", .UINT8), ("clusterid", .UINT16), ("dstaddrmode", .UINT8), ("dstaddress", .IEEEADDR), ("dstendpoint", .UINT8)],
    response := some [("status", .UINT8)] },
  -- definition.py:1214-1224
  { name := "setLinkKey", id := 35, type := .SREQ,
    request := [("shortaddr", .UINT16), ("ieeeaddr", .IEEEADDR), ("linkkey", .BUFFER)],
    response := some [("status", .UINT8)] },
  -- definition.py:1225-1231
  { name := "removeLinkKey", id := 36, type := .SREQ,
    request := [("ieeeaddr", .IEEEADDR)],
    response := some [("status", .UINT8)] },
  -- definition.py:1232-1242
  { name := "getLinkKey", id := 37, type := .SREQ,
    request := [("ieeeaddr", .IEEEADDR)],
    response := some [("status", .UINT8), ("ieeeaddr", .IEEEADDR), ("linkkeydata", .BUFFER16)] },
  -- definition.py:1243-1252
  { name := "nwkDiscoveryReq", id := 38, type := .SREQ,
    request := [("scanchannels", .UINT32), ("scanduration", .UINT8)],
    response := some [("status", .UINT8)] },
  -- definition.py:1253-1266
  { name := "joinReq", id := 39, type := .SREQ,
    request := [("logicalchannel", .UINT8), ("panid", .UINT16), ("extendedpanid", .IEEEADDR), ("chosenparent", .UINT16), ("parentdepth", .UINT8), ("stackprofile", .UINT8)],
    response := some [("status", .UINT8)] },
  -- definition.py:1267-1278
  { name := "mgmtNwkDiscReq", id := 48, type := .SREQ,
    request := [("dstaddr", .UINT16), ("scanchannels", .UINT32), ("scanduration", .UINT8), ("startindex", .UINT8)],
    response := some [("status", .UINT8)] },
  -- definition.py:1279-1288
  { name := "mgmtLqiReq", id := 49, type := .SREQ,
    request := [("dstaddr", .UINT16), ("startindex", .UINT8)],
    response := some [("status", .UINT8)] },
  -- definition.py:1289-1298
  { name := "mgmtRtgReq", id := 50, type := .SREQ,
    request := [("dstaddr", .UINT16), ("startindex", .UINT8)],
    response := some [("status", .UINT8)] },
  -- definition.py:1299-1308
  { name := "mgmtBindReq", id := 51, type := .SREQ,
    request := [("dstaddr", .UINT16), ("startindex", .UINT8)],
    response := some [("status", .UINT8)] },
  -- definition.py:1309-1319
  { name := "mgmtLeaveReq", id := 52, type := .SREQ,
    request := [("dstaddr", .UINT16), ("deviceaddress", .IEEEADDR), ("removechildrenRejoin", .UINT8)],
    response := some [("status", .UINT8)] },
  -- definition.py:1320-1330
  { name := "mgmtDirectJoinReq", id := 53, type := .SREQ,
    request := [("dstaddr", .UINT16), ("deviceaddr", .IEEEADDR), ("capinfo", .UINT8)],
    response := some [("status", .UINT8)] },
  -- definition.py:1331-1342
  { name := "mgmtPermitJoinReq", id := 54, type := .SREQ,
    request := [("addrmode", .UINT8), ("dstaddr", .UINT16), ("duration", .UINT8), ("tcsignificance", .UINT8)],
    response := some [("status", .UINT8)] },
  -- definition.py:1343-1356
  { name := "mgmtNwkUpdateReq", id := 55, type := .SREQ,
    request := [("dstaddr", .UINT16), ("dstaddrmode", .UINT8), ("channelmask", .UINT32), ("scanduration", .UINT8), ("scancount", .UINT8), ("nwkmanageraddr", .UINT16)],
    response := some [("status", .UINT8)] },
  -- definition.py:1357-1363
  { name := "msgCbRegister", id := 62, type := .SREQ,
    request := [("clusterid", .UINT16)],
    response := some [("status", .UINT8)] },
  -- definition.py:1364-1370
  { name := "msgCbRemove", id := 63, type := .SREQ,
    request := [("clusterid", .UINT16)],
    response := some [("status", .UINT8)] },
  -- definition.py:1371-1377
  { name := "startupFromApp", id := 64, type := .SREQ,
    request := [("startdelay", .UINT16)],
    response := some [("status", .UINT8)] },
  -- definition.py:1378-1383
  { name := "autoFindDestination", id := 65, type := .AREQ,
    request := [("endpoint", .UINT8)],
    response := none },
  -- definition.py:1384-1396
  { name := "nwkAddrRsp", id := 128, type := .AREQ,
    request := [("status", .UINT8), ("ieeeaddr", .IEEEADDR), ("nwkaddr", .UINT16), ("startindex", .UINT8), ("numassocdev", .UINT8), ("assocdevlist", .LIST_ASSOC_DEV)],
    response := none },
  -- definition.py:1397-1409
  { name := "ieeeAddrRsp", id := 129, type := .AREQ,
    request := [("status", .UINT8), ("ieeeaddr", .IEEEADDR), ("nwkaddr", .UINT16), ("startindex", .UINT8), ("numassocdev", .UINT8), ("assocdevlist", .LIST_ASSOC_DEV)],
    response := none },
  -- definition.py:1410-1431
  { name := "nodeDescRsp", id := 130, type := .AREQ,
    request := [("srcaddr", .UINT16), ("status", .UINT8), ("nwkaddr", .UINT16), ("logicaltype_cmplxdescavai_userdescavai", .UINT8), ("apsflags_freqband", .UINT8), ("maccapflags", .UINT8), ("manufacturercode", .UINT16), ("maxbuffersize", .UINT8), ("maxintransfersize", .UINT16), ("servermask", .UINT16), ("maxouttransfersize", .UINT16), ("descriptorcap", .UINT8)],
    response := none },
  -- definition.py:1432-1449
  { name := "powerDescRsp", id := 131, type := .AREQ,
    request := [("srcaddr", .UINT16), ("status", .UINT8), ("nwkaddr", .UINT16), ("currentpowermode_avaipowersrc", .UINT8), ("currentpowersrc_currentpowersrclevel", .UINT8)],
    response := none },
  -- definition.py:1450-1468
  { name := "simpleDescRsp", id := 132, type := .AREQ,
    request := [("srcaddr", .UINT16), ("status", .UINT8), ("nwkaddr", .UINT16), ("len", .UINT8), ("endpoint", .UINT8), ("profileid", .UINT16), ("deviceid", .UINT16), ("deviceversion", .UINT8), ("numinclusters", .UINT8), ("inclusterlist", .LIST_UINT16), ("numoutclusters", .UINT8), ("outclusterlist", .LIST_UINT16)],
    response := none },
  -- definition.py:1469-1480
  { name := "activeEpRsp", id := 133, type := .AREQ,
    request := [("srcaddr", .UINT16), ("status", .UINT8), ("nwkaddr", .UINT16), ("activeepcount", .UINT8), ("activeeplist", .LIST_UINT8)],
    response := none },
  -- definition.py:1481-1492
  { name := "matchDescRsp", id := 134, type := .AREQ,
    request := [("srcaddr", .UINT16), ("status", .UINT8), ("nwkaddr", .UINT16), ("matchlength", .UINT8), ("matchlist", .BUFFER)],
    response := none },
  -- definition.py:1493-1504
  { name := "complexDescRsp", id := 135, type := .AREQ,
    request := [("srcaddr", .UINT16), ("status", .UINT8), ("nwkaddr", .UINT16), ("complexlength", .UINT8), ("complexdesclist", .BUFFER)],
    response := none },
  -- definition.py:1505-1516
  { name := "userDescRsp", id := 136, type := .AREQ,
    request := [("srcaddr", .UINT16), ("status", .UINT8), ("nwkaddr", .UINT16), ("userlength", .UINT8), ("userdescriptor", .BUFFER)],
    response := none },
  -- definition.py:1517-1526
  { name := "userDescConf", id := 137, type := .AREQ,
    request := [("srcaddr", .UINT16), ("status", .UINT8), ("nwkaddr", .UINT16)],
    response := none },
  -- definition.py:1527-1536
  { name := "serverDiscRsp", id := 138, type := .AREQ,
    request := [("srcaddr", .UINT16), ("status", .UINT8), ("servermask", .UINT16)],
    response := none },
  -- definition.py:1537-1545
  { name := "endDeviceBindRsp", id := 160, type := .AREQ,
    request := [("srcaddr", .UINT16), ("status", .UINT8)],
    response := none },
  -- definition.py:1546-1554
  { name := "bindRsp", id := 161, type := .AREQ,
    request := [("srcaddr", .UINT16), ("status", .UINT8)],
    response := none },
  -- definition.py:1555-1563
  { name := "unbindRsp", id := 162, type := .AREQ,
    request := [("srcaddr", .UINT16), ("status", .UINT8)],
    response := none },
  -- definition.py:1564-1576
  { name := "mgmtNwkDiscRsp", id := 176, type := .AREQ,
    request := [("srcaddr", .UINT16), ("status", .UINT8), ("networkcount", .UINT8), ("startindex", .UINT8), ("networklistcount", .UINT8), ("networklist", .LIST_NETWORK)],
    response := none },
  -- definition.py:1577-1592
  { name := "mgmtLqiRsp", id := 177, type := .AREQ,
    request := [("srcaddr", .UINT16), ("status", .UINT8), ("neighbortableentries", .UINT8), ("startindex", .UINT8), ("neighborlqilistcount", .UINT8), ("neighborlqilist", .LIST_NEIGHBOR_LQI)],
    response := none },
  -- definition.py:1593-1608
  { name := "mgmtRtgRsp", id := 178, type := .AREQ,
    request := [("srcaddr", .UINT16), ("status", .UINT8), ("routingtableentries", .UINT8), ("startindex", .UINT8), ("routingtablelistcount", .UINT8), ("routingtablelist", .LIST_ROUTING_TABLE)],
    response := none },
  -- definition.py:1609-1624
  { name := "mgmtBindRsp", id := 179, type := .AREQ,
    request := [("srcaddr", .UINT16), ("status", .UINT8), ("bindingtableentries", .UINT8), ("startindex", .UINT8), ("bindingtablelistcount", .UINT8), ("bindingtablelist", .LIST_BIND_TABLE)],
    response := none },
  -- definition.py:1625-1633
  { name := "mgmtLeaveRsp", id := 180, type := .AREQ,
    request := [("srcaddr", .UINT16), ("status", .UINT8)],
    response := none },
  -- definition.py:1634-1642
  { name := "mgmtDirectJoinRsp", id := 181, type := .AREQ,
    request := [("srcaddr", .UINT16), ("status", .UINT8)],
    response := none },
  -- definition.py:1643-1656
  { name := "mgmtNwkUpdateNotify", id := 184, type := .AREQ,
    request := [("srcaddr", .UINT16), ("status", .UINT8), ("scanchannels", .UINT32), ("totaltransmissions", .UINT16), ("transmissionfailures", .UINT16), ("channelcount", .UINT8), ("energyvalues", .LIST_UINT8)],
    response := none },
  -- definition.py:1657-1665
  { name := "mgmtPermitJoinRsp", id := 182, type := .AREQ,
    request := [("srcaddr", .UINT16), ("status", .UINT8)],
    response := none },
  -- definition.py:1666-1671
  { name := "stateChangeInd", id := 192, type := .AREQ,
    request := [("state", .UINT8)],
    response := none },
  -- definition.py:1672-1682
  { name := "endDeviceAnnceInd", id := 193, type := .AREQ,
    request := [("srcaddr", .UINT16), ("nwkaddr", .UINT16), ("ieeeaddr", .IEEEADDR), ("capabilities", .UINT8)],
    response := none },
  -- definition.py:1683-1694
  { name := "matchDescRspSent", id := 194, type := .AREQ,
    request := [("nwkaddr", .UINT16), ("numinclusters", .UINT8), ("inclusterlist", .LIST_UINT16), ("numoutclusters", .UINT8), ("outclusterlist", .LIST_UINT16)],
    response := none },
  -- definition.py:1695-1703
  { name := "statusErrorRsp", id := 195, type := .AREQ,
    request := [("srcaddr", .UINT16), ("status", .UINT8)],
    response := none },
  -- definition.py:1704-1713
  { name := "srcRtgInd", id := 196, type := .AREQ,
    request := [("dstaddr", .UINT16), ("relaycount", .UINT8), ("relaylist", .LIST_UINT16)],
    response := none },
  -- definition.py:1714-1722
  { name := "beacon_notify_ind", id := 197, type := .AREQ,
    request := [("beaconcount", .UINT8), ("beaconlist", .BUFFER)],
    response := none },
  -- definition.py:1723-1732
  { name := "joinCnf", id := 198, type := .AREQ,
    request := [("status", .UINT8), ("deviceaddress", .UINT16), ("parentaddress", .UINT16)],
    response := none },
  -- definition.py:1733-1738
  { name := "nwkDiscoveryCnf", id := 199, type := .AREQ,
    request := [("status", .UINT8)],
    response := none },
  -- definition.py:1739-1748
  { name := "concentratorIndCb", id := 200, type := .AREQ,
    request := [("srcaddr", .UINT16), ("extaddr", .IEEEADDR), ("pktCost", .UINT8)],
    response := none },
  -- definition.py:1749-1760
  { name := "leaveInd", id := 201, type := .AREQ,
    request := [("srcaddr", .UINT16), ("extaddr", .IEEEADDR), ("request", .UINT8), ("removechildren", .UINT8), ("rejoin", .UINT8)],
    response := none },
  -- definition.py:1761-1770
  { name := "setRejoinParametersReq", id := 204, type := .SREQ,
    request := [("backoffduration", .UINT32), ("scanduration", .UINT32)],
    response := some [("status", .UINT8)] },
  -- definition.py:1771-1784
  { name := "msgCbIncoming", id := 255, type := .AREQ,
    request := [("srcaddr", .UINT16), ("wasbroadcast", .UINT8), ("clusterid", .UINT16), ("securityuse", .UINT8), ("seqnum", .UINT8), ("macdstaddr", .UINT16), ("msgdata", .BUFFER)],
    response := none },
  -- definition.py:1785-1794
  { name := "endDeviceTimeoutReq", id := 13, type := .SREQ,
    request := [("parentaddr", .UINT16), ("reqrimeout", .UINT16)],
    response := some [("status", .UINT8)] },
  -- definition.py:1795-1807
  { name := "sendData", id := 40, type := .SREQ,
    request := [("shortaddr", .UINT16), ("transseq", .UINT8), ("cmd", .UINT16), ("len", .UINT8), ("buf", .BUFFER)],
    response := some [("status", .UINT8)] },
  -- definition.py:1808-1818
  { name := "nwkAddrOfInterestReq", id := 41, type := .SREQ,
    request := [("shortaddr", .UINT16), ("nwkaddr", .UINT16), ("cmd", .UINT8)],
    response := some [("status", .UINT8)] },
  -- definition.py:1819-1829
  { name := "secAddLinkKey", id := 66, type := .SREQ,
    request := [("shortaddr", .UINT16), ("extaddr", .IEEEADDR), ("linkkey", .BUFFER)],
    response := some [("status", .UINT8)] },
  -- definition.py:1830-1841
  { name := "secEntryLookupExt", id := 67, type := .SREQ,
    request := [("extaddr", .IEEEADDR)],
    response := some [("status", .UINT8), ("ami", .UINT16), ("keynvid", .UINT16), ("authenticateoption", .UINT8)] },
  -- definition.py:1842-1848
  { name := "secDeviceRemove", id := 68, type := .SREQ,
    request := [("extaddr", .IEEEADDR)],
    response := some [("status", .UINT8)] },
  -- definition.py:1849-1859
  { name := "extRouteDisc", id := 69, type := .SREQ,
    request := [("dstAddr", .UINT16), ("options", .UINT8), ("radius", .UINT8)],
    response := some [("status", .UINT8)] },
  -- definition.py:1860-1870
  { name := "extRouteCheck", id := 70, type := .SREQ,
    request := [("dstaddr", .UINT16), ("rtstatus", .UINT8), ("options", .UINT8)],
    response := some [("status", .UINT8)] },
  -- definition.py:1871-1880
  { name := "extRemoveGroup", id := 71, type := .SREQ,
    request := [("endpoint", .UINT8), ("groupid", .UINT16)],
    response := some [("status", .UINT8)] },
  -- definition.py:1881-1887
  { name := "extRemoveAllGroup", id := 72, type := .SREQ,
    request := [("endpoint", .UINT8)],
    response := some [("status", .UINT8)] },
  -- definition.py:1888-1897
  { name := "extFindAllGroupsEndpoint", id := 73, type := .SREQ,
    request := [("endpoint", .UINT8)],
    response := some [("groups", .UINT8), ("grouplist", .LIST_UINT16)] },
  -- definition.py:1898-1912
  { name := "extFindGroup", id := 74, type := .SREQ,
    request := [("endpoint", .UINT8), ("groupid", .UINT16)],
    response := some [("status", .UINT8), ("groupid", .UINT16), ("namelen", .UINT8), ("groupname", .BUFFER)] },
  -- definition.py:1913-1924
  { name := "extAddGroup", id := 75, type := .SREQ,
    request := [("endpoint", .UINT8), ("groupid", .UINT16), ("namelen", .UINT8), ("groupname", .BUFFER)],
    response := some [("status", .UINT8)] },
  -- definition.py:1925-1931
  { name := "extCountAllGroups", id := 76, type := .SREQ,
    request := [],
    response := some [("status", .UINT8)] },
  -- definition.py:1932-1941
  { name := "extRxIdle", id := 77, type := .SREQ,
    request := [("setflag", .UINT8), ("setvalue", .UINT8)],
    response := some [("status", .UINT8)] },
  -- definition.py:1942-1952
  { name := "extUpdateNwkKey", id := 78, type := .SREQ,
    request := [("dstaddr", .UINT16), ("keyseqnum", .UINT8), ("key", .BUFFER)],
    response := some [("status", .UINT8)] },
  -- definition.py:1953-1962
  { name := "extSwitchNwkKey", id := 79, type := .SREQ,
    request := [("dstaddr", .UINT16), ("keyseqnum", .UINT8)],
    response := some [("status", .UINT8)] },
  -- definition.py:1963-1977
  { name := "extNwkInfo", id := 80, type := .SREQ,
    request := [],
    response := some [("shortaddr", .UINT16), ("devstate", .UINT8), ("panid", .UINT16), ("parentaddr", .UINT16), ("extendedpanid", .IEEEADDR), ("parentextaddr", .IEEEADDR), ("channel", .UINT8)] },
  -- definition.py:1978-1988
  { name := "extSecApsRemoveReq", id := 81, type := .SREQ,
    request := [("parentaddr", .UINT16), ("nwkaddr", .UINT16), ("extaddr", .IEEEADDR)],
    response := some [("status", .UINT8)] },
  -- definition.py:1989-1995
  { name := "forceConcentratorChange", id := 82, type := .SREQ,
    request := [],
    response := some [] },
  -- definition.py:1996-2002
  { name := "extSetParams", id := 83, type := .SREQ,
    request := [("usemulticast", .UINT8)],
    response := some [("status", .UINT8)] },
  -- definition.py:2003-2012
  { name := "tcDeviceInd", id := 202, type := .AREQ,
    request := [("nwkaddr", .UINT16), ("extaddr", .IEEEADDR), ("parentaddr", .UINT16)],
    response := none },
  -- definition.py:2013-2018
  { name := "permitJoinInd", id := 203, type := .AREQ,
    request := [("duration", .UINT8)],
    response := none }]

/-- `Definition[Subsystem.SAPI]`, definition.py:2020-2163 -/
def defSAPI : List Cmd := [
  -- definition.py:2021-2021
  { name := "systemReset", id := 9, type := .AREQ,
    request := [],
    response := none },
  -- definition.py:2022-2028
  { name := "startRequest", id := 0, type := .SREQ,
    request := [],
    response := some [] },
  -- definition.py:2029-2039
  { name := "bindDevice", id := 1, type := .SREQ,
    request := [("action", .UINT8), ("commandid", .UINT16), ("destination", .IEEEADDR)],
    response := some [] },
  -- definition.py:2040-2046
  { name := "allowBind", id := 2, type := .SREQ,
    request := [("timeout", .UINT8)],
    response := some [] },
  -- definition.py:2047-2061
  { name := "sendDataRequest", id := 3, type := .SREQ,
    request := [("destination", .UINT16), ("commandid", .UINT16), ("handle", .UINT8), ("txoptions", .UINT8), ("radius", .UINT8), ("payloadlen", .UINT8), ("payloadvalue", .BUFFER)],
    response := some [] },
  -- definition.py:2062-2073
  { name := "readConfiguration", id := 4, type := .SREQ,
    request := [("configid", .UINT8)],
    response := some [("status", .UINT8), ("configid", .UINT8), ("len", .UINT8), ("value", .BUFFER)] },
  -- definition.py:2074-2084
  { name := "writeConfiguration", id := 5, type := .SREQ,
    request := [("configid", .UINT8), ("len", .UINT8), ("value", .BUFFER)],
    response := some [("status", .UINT8)] },
  -- definition.py:2085-2094
  { name := "getDeviceInfo", id := 6, type := .SREQ,
    request := [("param", .UINT8)],
    response := some [("param", .UINT8), ("value", .BUFFER8)] },
  -- definition.py:2095-2101
  { name := "findDeviceRequest", id := 7, type := .SREQ,
    request := [("searchKey", .IEEEADDR)],
    response := some [] },
  -- definition.py:2102-2111
  { name := "permitJoiningRequest", id := 8, type := .SREQ,
    request := [("destination", .UINT16), ("timeout", .UINT8)],
    response := some [("status", .UINT8)] },
  -- definition.py:2112-2117
  { name := "startConfirm", id := 128, type := .AREQ,
    request := [("status", .UINT8)],
    response := none },
  -- definition.py:2118-2126
  { name := "bindConfirm", id := 129, type := .AREQ,
    request := [("commandid", .UINT16), ("status", .UINT8)],
    response := none },
  -- definition.py:2127-2132
  { name := "allowBindConfirm", id := 130, type := .AREQ,
    request := [("source", .UINT16)],
    response := none },
  -- definition.py:2133-2141
  { name := "sendDataConfirm", id := 131, type := .AREQ,
    request := [("handle", .UINT8), ("status", .UINT8)],
    response := none },
  -- definition.py:2142-2151
  { name := "findDeviceConfirm", id := 133, type := .AREQ,
    request := [("searchtype", .UINT8), ("searchkey", .UINT16), ("result", .IEEEADDR)],
    response := none },
  -- definition.py:2152-2162
  { name := "receiveDataIndication", id := 135, type := .AREQ,
    request := [("source", .UINT16), ("command", .UINT16), ("len", .UINT16), ("data", .BUFFER)],
    response := none }]

/-- `Definition[Subsystem.UTIL]`, definition.py:2164-2519 -/
def defUTIL : List Cmd := [
  -- definition.py:2165-2179
  { name := "getDeviceInfo", id := 0, type := .SREQ,
    request := [],
    response := some [("status", .UINT8), ("ieeeaddr", .IEEEADDR), ("shortaddr", .UINT16), ("devicetype", .UINT8), ("devicestate", .UINT8), ("numassocdevices", .UINT8), ("assocdeviceslist", .LIST_UINT16)] },
  -- definition.py:2180-2193
  { name := "getNvInfo", id := 1, type := .SREQ,
    request := [],
    response := some [("status", .UINT8), ("ieeeaddr", .IEEEADDR), ("scanchannels", .UINT32), ("panid", .UINT16), ("securitylevel", .UINT8), ("preconfigkey", .BUFFER16)] },
  -- definition.py:2194-2200
  { name := "setPanid", id := 2, type := .SREQ,
    request := [("panid", .UINT16)],
    response := some [("status", .UINT8)] },
  -- definition.py:2201-2207
  { name := "setChannels", id := 3, type := .SREQ,
    request := [("channels", .UINT32)],
    response := some [("status", .UINT8)] },
  -- definition.py:2208-2214
  { name := "setSeclevel", id := 4, type := .SREQ,
    request := [("securitylevel", .UINT8)],
    response := some [("status", .UINT8)] },
  -- definition.py:2215-2221
  { name := "setPrecfgkey", id := 5, type := .SREQ,
    request := [("preconfigkey", .BUFFER)],
    response := some [("status", .UINT8)] },
  -- definition.py:2222-2231
  { name := "callbackSubCmd", id := 6, type := .SREQ,
    request := [("subsystemid", .UINT16), ("action", .UINT8)],
    response := some [("status", .UINT8)] },
  -- definition.py:2232-2241
  { name := "keyEvent", id := 7, type := .SREQ,
    request := [("keys", .UINT8), ("shift", .UINT8)],
    response := some [("status", .UINT8)] },
  -- definition.py:2242-2248
  { name := "timeAlive", id := 9, type := .SREQ,
    request := [],
    response := some [("seconds", .UINT32)] },
  -- definition.py:2249-2258
  { name := "ledControl", id := 10, type := .SREQ,
    request := [("ledid", .UINT8), ("mode", .UINT8)],
    response := some [("status", .UINT8)] },
  -- definition.py:2259-2265
  { name := "testLoopback", id := 16, type := .SREQ,
    request := [("data", .BUFFER)],
    response := some [("data", .BUFFER)] },
  -- definition.py:2266-2272
  { name := "dataReq", id := 17, type := .SREQ,
    request := [("securityuse", .UINT8)],
    response := some [("status", .UINT8)] },
  -- definition.py:2273-2279
  { name := "srcMatchEnable", id := 32, type := .SREQ,
    request := [],
    response := some [("status", .UINT8)] },
  -- definition.py:2280-2290
  { name := "srcMatchAddEntry", id := 33, type := .SREQ,
    request := [("addressmode", .UINT8), ("address", .IEEEADDR), ("panid", .UINT16)],
    response := some [("status", .UINT8)] },
  -- definition.py:2291-2301
  { name := "srcMatchDelEntry", id := 34, type := .SREQ,
    request := [("addressmode", .UINT8), ("address", .IEEEADDR), ("panid", .UINT16)],
    response := some [("status", .UINT8)] },
  -- definition.py:2302-2312
  { name := "srcMatchCheckSrcAddr", id := 35, type := .SREQ,
    request := [("addressmode", .UINT8), ("address", .IEEEADDR), ("panid", .UINT16)],
    response := some [("status", .UINT8)] },
  -- definition.py:2313-2319
  { name := "srcMatchAckAllPending", id := 36, type := .SREQ,
    request := [("option", .UINT8)],
    response := some [("status", .UINT8)] },
  -- definition.py:2320-2329
  { name := "srcMatchCheckAllPending", id := 37, type := .SREQ,
    request := [],
    response := some [("status", .UINT8), ("value", .UINT8)] },
  -- definition.py:2330-2336
  { name := "addrmgrExtAddrLookup", id := 64, type := .SREQ,
    request := [("extaddr", .IEEEADDR)],
    response := some [("nwkaddr", .UINT16)] },
  -- definition.py:2337-2343
  { name := "addrmgrNwkAddrLookup", id := 65, type := .SREQ,
    request := [("nwkaddr", .UINT16)],
    response := some [("extaddr", .IEEEADDR)] },
  -- definition.py:2344-2355
  { name := "apsmeLinkKeyDataGet", id := 68, type := .SREQ,
    request := [("extaddr", .IEEEADDR)],
    response := some [("status", .UINT8), ("seckey", .BUFFER16), ("txfrmcntr", .UINT32), ("rxfrmcntr", .UINT32)] },
  -- definition.py:2356-2365
  { name := "apsmeLinkKeyNvIdGet", id := 69, type := .SREQ,
    request := [("extaddr", .IEEEADDR)],
    response := some [("status", .UINT8), ("linkkeynvid", .UINT16)] },
  -- definition.py:2366-2375
  { name := "assocCount", id := 72, type := .SREQ,
    request := [("startrelation", .UINT8), ("endrelation", .UINT8)],
    response := some [("count", .UINT16)] },
  -- definition.py:2376-2382
  { name := "assocFindDevice", id := 73, type := .SREQ,
    request := [("number", .UINT8)],
    response := some [("device", .BUFFER18)] },
  -- definition.py:2383-2392
  { name := "assocGetWithAddress", id := 74, type := .SREQ,
    request := [("extaddr", .IEEEADDR), ("nwkaddr", .UINT16)],
    response := some [("device", .BUFFER18)] },
  -- definition.py:2393-2399
  { name := "apsmeRequestKeyCmd", id := 75, type := .SREQ,
    request := [("partneraddr", .IEEEADDR)],
    response := some [("status", .UINT8)] },
  -- definition.py:2400-2412
  { name := "zclKeyEstInitEst", id := 128, type := .SREQ,
    request := [("taskid", .UINT8), ("seqnum", .UINT8), ("endpoint", .UINT8), ("addrmode", .UINT8), ("extaddr", .IEEEADDR)],
    response := some [("status", .UINT8)] },
  -- definition.py:2413-2425
  { name := "zclKeyEstSign", id := 129, type := .SREQ,
    request := [("inputlen", .UINT8), ("input", .BUFFER)],
    response := some [("status", .UINT8), ("key", .BUFFER42)] },
  -- definition.py:2426-2426
  { name := "syncReq", id := 224, type := .AREQ,
    request := [],
    response := none },
  -- definition.py:2427-2438
  { name := "zclKeyEstablishInd", id := 225, type := .AREQ,
    request := [("taskid", .UINT8), ("event", .UINT8), ("status", .UINT8), ("waittime", .UINT8), ("suite", .UINT16)],
    response := none },
  -- definition.py:2439-2456
  { name := "gpioSetDirection", id := 20, type := .SREQ,
    request := [("port", .UINT8), ("bit", .UINT8), ("direction", .UINT8)],
    response := some [("oldp0dir", .UINT8), ("oldp1dir", .UINT8), ("oldp2dir", .UINT8), ("p0dir", .UINT8), ("p1dir", .UINT8), ("p2dir", .UINT8)] },
  -- definition.py:2457-2470
  { name := "gpioRead", id := 21, type := .SREQ,
    request := [],
    response := some [("p0", .UINT8), ("p1", .UINT8), ("p2", .UINT8), ("p0dir", .UINT8), ("p1dir", .UINT8), ("p2dir", .UINT8)] },
  -- definition.py:2471-2491
  { name := "gpioWrite", id := 22, type := .SREQ,
    request := [("port", .UINT8), ("bit", .UINT8), ("value", .UINT8)],
    response := some [("oldp0", .UINT8), ("oldp1", .UINT8), ("oldp2", .UINT8), ("p0", .UINT8), ("p1", .UINT8), ("p2", .UINT8), ("p0dir", .UINT8), ("p1dir", .UINT8), ("p2dir", .UINT8)] },
  -- definition.py:2492-2498
  { name := "srngGen", id := 76, type := .SREQ,
    request := [],
    response := some [("outrng", .BUFFER100)] },
  -- definition.py:2499-2518
  { name := "bindAddEntry", id := 77, type := .SREQ,
    request := [("addrmode", .UINT8), ("dstaddr", .IEEEADDR), ("dstendpoint", .UINT8), ("numclusterids", .UINT8), ("clusterids", .LIST_UINT16)],
    response := some [("srcep", .UINT8), ("dstgroupmode", .UINT8), ("dstidx", .UINT16), ("dstep", .UINT8), ("numclusterids", .UINT8), ("clusterids", .BUFFER8)] }]

/-- `Definition[Subsystem.DEBUG]`, definition.py:2520-2540 -/
def defDEBUG : List Cmd := [
  -- definition.py:2521-2530
  { name := "setThreshold", id := 0, type := .SREQ,
    request := [("componentid", .UINT8), ("threshold", .UINT8)],
    response := some [("status", .UINT8)] },
  -- definition.py:2531-2539
  { name := "msg", id := 128, type := .AREQ,
    request := [("length", .UINT8), ("string", .BUFFER)],
    response := none }]

/-- `Definition[Subsystem.APP]`, definition.py:2541-2580 -/
def defAPP : List Cmd := [
  -- definition.py:2542-2555
  { name := "msg", id := 0, type := .SREQ,
    request := [("appendpoint", .UINT8), ("destaddress", .UINT16), ("destendpoint", .UINT8), ("clusterid", .UINT16), ("msglen", .UINT8), ("message", .BUFFER)],
    response := some [("status", .UINT8)] },
  -- definition.py:2556-2567
  { name := "userTest", id := 1, type := .SREQ,
    request := [("srcep", .UINT8), ("commandid", .UINT16), ("param1", .UINT16), ("param2", .UINT16)],
    response := some [("status", .UINT8)] },
  -- definition.py:2568-2579
  { name := "zllTlInd", id := 129, type := .AREQ,
    request := [("nwkaddr", .UINT16), ("endpoint", .UINT8), ("profileid", .UINT16), ("deviceid", .UINT16), ("version", .UINT8)],
    response := none }]

/-- `Definition[Subsystem.APP_CNF]`, definition.py:2581-2606 -/
def defAPP_CNF : List Cmd := [
  -- definition.py:2582-2588
  { name := "bdbStartCommissioning", id := 5, type := .SREQ,
    request := [("mode", .UINT8)],
    response := some [("status", .UINT8)] },
  -- definition.py:2589-2598
  { name := "bdbSetChannel", id := 8, type := .SREQ,
    request := [("isPrimary", .UINT8), ("channel", .UINT32)],
    response := some [("status", .UINT8)] },
  -- definition.py:2599-2605
  { name := "bdbComissioningNotifcation", id := 128, type := .AREQ,
    request := [("status", .UINT8)],
    response := some [("status", .UINT8)] }]

/-- `Definition[Subsystem.GREENPOWER]`, definition.py:2607-2623 -/
def defGREENPOWER : List Cmd := [
  -- definition.py:2608-2622
  { name := "secReq", id := 3, type := .SREQ,
    request := [("applicationID", .UINT8), ("srcID", .UINT32), ("gdpIeeeAddr", .IEEEADDR), ("endpoint", .UINT8), ("gpdfSecurityLevel", .UINT8), ("gpdfSecurityFrameCounter", .UINT8), ("dgpStubHandle", .UINT8)],
    response := some [("status", .UINT8)] }]

/-- The dict `Definition` (definition.py:14-2624): subsystem to command list.
`none` is Python's `KeyError` (subsystems with no entry). -/
def definition : Subsystem → Option (List Cmd)
  | .SYS => some defSYS
  | .MAC => some defMAC
  | .AF => some defAF
  | .ZDO => some defZDO
  | .SAPI => some defSAPI
  | .UTIL => some defUTIL
  | .DEBUG => some defDEBUG
  | .APP => some defAPP
  | .APP_CNF => some defAPP_CNF
  | .GREENPOWER => some defGREENPOWER
  | _ => none

end Zcc
