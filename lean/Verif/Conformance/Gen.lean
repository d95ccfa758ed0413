import Verif.Model.GenPrint
import Verif.Conformance.Text

/-!
The unit tests of the repository, run on the model: the code generator
(/repo/tests/generator_test.py, generator_callback_first_test.py, generator_callback_last_test.py,
generator_simple_test.py, generator_simple_test-p-only.py, generator_simple_test-r-only.py). The text of the
generated files is compared with the files in /repo/tests/expected_gen; the header of the callbacks also where
the test does not compare it.
-/

namespace Apx.Conformance

set_option maxRecDepth 100000

-- test_ctypename
example : (["C", "c", "S", "s", "L", "l"].map fun s => (do
      let r ← sig s
      (r.1.getD default).ctypename : Py Str)) =
    ["uint8", "sint8", "uint16", "sint16", "uint32", "sint32"].map fun s => .ok s.toList := by decide +kernel

/-- The files generated for a node, as text: header, source, header of the callbacks. -/
def genTexts (o : GenOptions) (n : Py Node) : Py (Str × Str × Option Str) := do
  let n ← n
  let f ← generateFiles o n
  .ok (f.header.text, f.source.text, f.callbacks.map fun c => c.2.text)

/-- A file with these lines. -/
def fileOf (l : List String) : Str := fileText (l.map String.toList)

/-- A dictionary of callbacks. -/
def cbMap (l : List (String × String)) : Option (Str → Option Str) :=
  some fun s => (l.map fun x => (x.1.toList, x.2.toList)).lookup s

-- generator_test.py
set_option maxHeartbeats 0 in
example : (genTexts { callbacks := cbMap [("RU8Port", "RU8Port_cb_func"), ("RS16ARPort", "RS16ARPort_cb_func"), ("SoundRequest", "SoundRequest_cb_func")] } (do
      let n ← nodeOf "Test" [.T "SoundRequest_T" "{\"SoundId\"S\"Volume\"C}",
        .T "LightRequest_T" "{\"LightId\"S\"Intensity\"C}", .T "HapticRequest_T" "{\"HapticId\"S\"Intensity\"C}",
        .R "RU8FirstPort" "C" (some "=12"), .R "RS16ARPort" "s[3]" (some "={32767, 1, 0}"),
        .R "RS32Port" "l" (some "=1"), .R "RU8Port" "C" (some "=255"), .R "RU8ARPort" "C[3]" (some "={255, 255, 255}"),
        .R "LightRequest" "T[\"LightRequest_T\"]" (some "={65535,255}"),
        .R "SoundRequest" "T[\"SoundRequest_T\"]" (some "={65535,255}"), .R "RU8LastPort" "C" (some "=210"),
        .P "SoundRequestAck" "T[\"SoundRequest_T\"]" (some "={65535,255}"),
        .P "HapticRequest" "T[\"HapticRequest_T\"]" (some "={65535,255}"), .P "PS8ARPort" "c[1]" (some "={1}"),
        .P "PS8Port" "c" (some "=0"), .P "PU16ARPort" "S[4]" (some "={65535, 65535, 65535, 65535}"),
        .P "PU32Port" "L" (some "=4294967295")]
      n.finalize false true)) =
    .ok (fileOf ["#ifndef APXNODE_TEST_H",
     "#define APXNODE_TEST_H",
     "",
     "#include <stdbool.h>",
     "#include \"apx_nodeData.h\"",
     "",
     "//////////////////////////////////////////////////////////////////////////////",
     "// CONSTANTS",
     "//////////////////////////////////////////////////////////////////////////////",
     "",
     "//////////////////////////////////////////////////////////////////////////////",
     "// FUNCTION PROTOTYPES",
     "//////////////////////////////////////////////////////////////////////////////",
     "apx_nodeData_t * ApxNode_Init_Test(void);",
     "apx_nodeData_t * ApxNode_GetNodeData_Test(void);",
     "bool ApxNode_IsConnected_Test(void);",
     "",
     "Std_ReturnType ApxNode_Read_Test_RU8FirstPort(uint8 *val);",
     "Std_ReturnType ApxNode_Read_Test_RS16ARPort(sint16 *val);",
     "Std_ReturnType ApxNode_Read_Test_RS32Port(sint32 *val);",
     "Std_ReturnType ApxNode_Read_Test_RU8Port(uint8 *val);",
     "Std_ReturnType ApxNode_Read_Test_RU8ARPort(uint8 *val);",
     "Std_ReturnType ApxNode_Read_Test_LightRequest(LightRequest_T *val);",
     "Std_ReturnType ApxNode_Read_Test_SoundRequest(SoundRequest_T *val);",
     "Std_ReturnType ApxNode_Read_Test_RU8LastPort(uint8 *val);",
     "Std_ReturnType ApxNode_Write_Test_SoundRequestAck(SoundRequest_T *val);",
     "Std_ReturnType ApxNode_Write_Test_HapticRequest(HapticRequest_T *val);",
     "Std_ReturnType ApxNode_Write_Test_PS8ARPort(sint8 *val);",
     "Std_ReturnType ApxNode_Write_Test_PS8Port(sint8 val);",
     "Std_ReturnType ApxNode_Write_Test_PU16ARPort(uint16 *val);",
     "Std_ReturnType ApxNode_Write_Test_PU32Port(uint32 val);",
     "void Test_inPortDataWritten(void *arg, apx_nodeData_t *nodeData, uint32_t offset, uint32_t len);",
     "",
     "#endif //APXNODE_TEST_H"],
    fileOf ["/* Test has been autogenerated by py-apx generator 0.4.1 */",
     "",
     "//////////////////////////////////////////////////////////////////////////////",
     "// INCLUDES",
     "//////////////////////////////////////////////////////////////////////////////",
     "#include <string.h>",
     "#include <stdio.h>",
     "#include \"ApxNode_Test.h\"",
     "#include \"ApxNode_Test_Cbk.h\"",
     "#include \"pack.h\"",
     "",
     "//////////////////////////////////////////////////////////////////////////////",
     "// CONSTANTS AND DATA TYPES",
     "//////////////////////////////////////////////////////////////////////////////",
     "#define APX_DEFINITON_LEN 493u",
     "#define APX_IN_PORT_DATA_LEN 22u",
     "#define APX_OUT_PORT_DATA_LEN 20u",
     "",
     "#define APX_RX_LEN_RU8FIRSTPORT 1u",
     "#define APX_RX_LEN_RU8PORT 1u",
     "#define APX_RX_LEN_RU8LASTPORT 1u",
     "#define APX_RX_LEN_RU8ARPORT 3u",
     "#define APX_RX_LEN_LIGHTREQUEST 3u",
     "#define APX_RX_LEN_SOUNDREQUEST 3u",
     "#define APX_RX_LEN_RS32PORT 4u",
     "#define APX_RX_LEN_RS16ARPORT 6u",
     "",
     "#define APX_RX_OFFSET_RU8FIRSTPORT 0u",
     "#define APX_RX_OFFSET_RS16ARPORT 1u",
     "#define APX_RX_OFFSET_RS32PORT 7u",
     "#define APX_RX_OFFSET_RU8PORT 11u",
     "#define APX_RX_OFFSET_RU8ARPORT 12u",
     "#define APX_RX_OFFSET_LIGHTREQUEST 15u",
     "#define APX_RX_OFFSET_SOUNDREQUEST 18u",
     "#define APX_RX_OFFSET_RU8LASTPORT 21u",
     "",
     "//////////////////////////////////////////////////////////////////////////////",
     "// LOCAL FUNCTIONS",
     "//////////////////////////////////////////////////////////////////////////////",
     "",
     "//////////////////////////////////////////////////////////////////////////////",
     "// LOCAL VARIABLES",
     "//////////////////////////////////////////////////////////////////////////////",
     "static const uint8_t m_outPortInitData[APX_OUT_PORT_DATA_LEN]= {",
     "   255, 255, 255, 255, 255, 255, 1, 0, 255, 255, 255, 255, 255, 255, 255, 255, 255, 255, 255, 255",
     "};",
     "",
     "static uint8_t m_outPortdata[APX_OUT_PORT_DATA_LEN];",
     "static uint8_t m_outPortDirtyFlags[APX_OUT_PORT_DATA_LEN];",
     "static const uint8_t m_inPortInitData[APX_IN_PORT_DATA_LEN]= {",
     "   12, 255, 127, 1, 0, 0, 0, 1, 0, 0, 0, 255, 255, 255, 255, 255, 255, 255, 255, 255, 255, 210",
     "};",
     "",
     "static uint8_t m_inPortdata[APX_IN_PORT_DATA_LEN];",
     "static uint8_t m_inPortSyncedFlags[APX_IN_PORT_DATA_LEN];",
     "static apx_nodeData_t m_nodeData;",
     "static const char *m_apxDefinitionData=",
     "\"APX/1.2\\n\"",
     "\"N\\\"Test\\\"\\n\"",
     "\"T\\\"T0\\\"{\\\"HapticId\\\"S\\\"Intensity\\\"C}\\n\"",
     "\"T\\\"T1\\\"{\\\"LightId\\\"S\\\"Intensity\\\"C}\\n\"",
     "\"T\\\"T2\\\"{\\\"SoundId\\\"S\\\"Volume\\\"C}\\n\"",
     "\"P\\\"SoundRequestAck\\\"T[2]:={65535,255}\\n\"",
     "\"P\\\"HapticRequest\\\"T[0]:={65535,255}\\n\"",
     "\"P\\\"PS8ARPort\\\"c[1]:={1}\\n\"",
     "\"P\\\"PS8Port\\\"c:=0\\n\"",
     "\"P\\\"PU16ARPort\\\"S[4]:={65535, 65535, 65535, 65535}\\n\"",
     "\"P\\\"PU32Port\\\"L:=4294967295\\n\"",
     "\"R\\\"RU8FirstPort\\\"C:=12\\n\"",
     "\"R\\\"RS16ARPort\\\"s[3]:={32767, 1, 0}\\n\"",
     "\"R\\\"RS32Port\\\"l:=1\\n\"",
     "\"R\\\"RU8Port\\\"C:=255\\n\"",
     "\"R\\\"RU8ARPort\\\"C[3]:={255, 255, 255}\\n\"",
     "\"R\\\"LightRequest\\\"T[1]:={65535,255}\\n\"",
     "\"R\\\"SoundRequest\\\"T[2]:={65535,255}\\n\"",
     "\"R\\\"RU8LastPort\\\"C:=210\\n\"",
     "\"\\n\";",
     "",
     "//////////////////////////////////////////////////////////////////////////////",
     "// GLOBAL FUNCTIONS",
     "//////////////////////////////////////////////////////////////////////////////",
     "apx_nodeData_t * ApxNode_Init_Test(void)",
     "{",
     "   apx_nodeDataHandlerTable_t nodeDataHandler;",
     "   memcpy(&m_inPortdata[0], &m_inPortInitData[0], APX_IN_PORT_DATA_LEN);",
     "   memset(&m_inPortSyncedFlags[0], 0, sizeof(m_inPortSyncedFlags));",
     "   memcpy(&m_outPortdata[0], &m_outPortInitData[0], APX_OUT_PORT_DATA_LEN);",
     "   memset(&m_outPortDirtyFlags[0], 0, sizeof(m_outPortDirtyFlags));",
     "   apx_nodeData_create(&m_nodeData, \"Test\", (uint8_t*) &m_apxDefinitionData[0], APX_DEFINITON_LEN, &m_inPortdata[0], &m_inPortSyncedFlags[0], APX_IN_PORT_DATA_LEN, &m_outPortdata[0], &m_outPortDirtyFlags[0], APX_OUT_PORT_DATA_LEN);",
     "   memset(&nodeDataHandler, 0, sizeof(nodeDataHandler));",
     "   nodeDataHandler.inPortDataWritten = Test_inPortDataWritten;",
     "   apx_nodeData_setHandlerTable(&m_nodeData, &nodeDataHandler);",
     "   return &m_nodeData;",
     "}",
     "",
     "apx_nodeData_t * ApxNode_GetNodeData_Test(void)",
     "{",
     "   return &m_nodeData;",
     "}",
     "",
     "bool ApxNode_IsConnected_Test(void)",
     "{",
     "   return ( apx_nodeData_isInPortDataOpen(&m_nodeData) && apx_nodeData_isOutPortDataOpen(&m_nodeData) );",
     "}",
     "",
     "Std_ReturnType ApxNode_Read_Test_RU8FirstPort(uint8 *val)",
     "{",
     "   *val = (uint8_t) m_inPortdata[0];",
     "   return E_OK;",
     "}",
     "",
     "Std_ReturnType ApxNode_Read_Test_RS16ARPort(sint16 *val)",
     "{",
     "   uint8_t *p;",
     "   uint8_t i;",
     "   apx_nodeData_lockInPortData(&m_nodeData);",
     "   p=&m_inPortdata[1];",
     "   for(i=0;i<3;i++)",
     "   {",
     "      val[i] = (int16_t) unpackLE(p,(uint8_t) sizeof(int16_t));",
     "      p+=sizeof(int16_t);",
     "   }",
     "   apx_nodeData_unlockInPortData(&m_nodeData);",
     "   return E_OK;",
     "}",
     "",
     "Std_ReturnType ApxNode_Read_Test_RS32Port(sint32 *val)",
     "{",
     "   apx_nodeData_lockInPortData(&m_nodeData);",
     "   *val = (int32_t) unpackLE(&m_inPortdata[7],(uint8_t) sizeof(int32_t));",
     "   apx_nodeData_unlockInPortData(&m_nodeData);",
     "   return E_OK;",
     "}",
     "",
     "Std_ReturnType ApxNode_Read_Test_RU8Port(uint8 *val)",
     "{",
     "   *val = (uint8_t) m_inPortdata[11];",
     "   return E_OK;",
     "}",
     "",
     "Std_ReturnType ApxNode_Read_Test_RU8ARPort(uint8 *val)",
     "{",
     "   uint8_t *p;",
     "   uint8_t i;",
     "   apx_nodeData_lockInPortData(&m_nodeData);",
     "   p=&m_inPortdata[12];",
     "   for(i=0;i<3;i++)",
     "   {",
     "      val[i] = (uint8_t) *p;",
     "      p++;",
     "   }",
     "   apx_nodeData_unlockInPortData(&m_nodeData);",
     "   return E_OK;",
     "}",
     "",
     "Std_ReturnType ApxNode_Read_Test_LightRequest(LightRequest_T *val)",
     "{",
     "   uint8_t *p;",
     "   apx_nodeData_lockInPortData(&m_nodeData);",
     "   p=&m_inPortdata[15];",
     "   val->LightId = (uint16_t) unpackLE(p,(uint8_t) sizeof(uint16_t));",
     "   p+=sizeof(uint16_t);",
     "   val->Intensity = (uint8_t) *p;",
     "   p++;",
     "   apx_nodeData_unlockInPortData(&m_nodeData);",
     "   return E_OK;",
     "}",
     "",
     "Std_ReturnType ApxNode_Read_Test_SoundRequest(SoundRequest_T *val)",
     "{",
     "   uint8_t *p;",
     "   apx_nodeData_lockInPortData(&m_nodeData);",
     "   p=&m_inPortdata[18];",
     "   val->SoundId = (uint16_t) unpackLE(p,(uint8_t) sizeof(uint16_t));",
     "   p+=sizeof(uint16_t);",
     "   val->Volume = (uint8_t) *p;",
     "   p++;",
     "   apx_nodeData_unlockInPortData(&m_nodeData);",
     "   return E_OK;",
     "}",
     "",
     "Std_ReturnType ApxNode_Read_Test_RU8LastPort(uint8 *val)",
     "{",
     "   *val = (uint8_t) m_inPortdata[21];",
     "   return E_OK;",
     "}",
     "",
     "Std_ReturnType ApxNode_Write_Test_SoundRequestAck(SoundRequest_T *val)",
     "{",
     "   uint8_t *p;",
     "   apx_nodeData_lockOutPortData(&m_nodeData);",
     "   p=&m_outPortdata[0];",
     "   packLE(p,(uint32_t) val->SoundId,(uint8_t) sizeof(uint16_t));",
     "   p+=sizeof(uint16_t);",
     "   *p=(uint8_t) val->Volume;",
     "   p++;",
     "   apx_nodeData_outPortDataWriteNotify(&m_nodeData, 0, 3, false);",
     "   return E_OK;",
     "}",
     "",
     "Std_ReturnType ApxNode_Write_Test_HapticRequest(HapticRequest_T *val)",
     "{",
     "   uint8_t *p;",
     "   apx_nodeData_lockOutPortData(&m_nodeData);",
     "   p=&m_outPortdata[3];",
     "   packLE(p,(uint32_t) val->HapticId,(uint8_t) sizeof(uint16_t));",
     "   p+=sizeof(uint16_t);",
     "   *p=(uint8_t) val->Intensity;",
     "   p++;",
     "   apx_nodeData_outPortDataWriteNotify(&m_nodeData, 3, 3, false);",
     "   return E_OK;",
     "}",
     "",
     "Std_ReturnType ApxNode_Write_Test_PS8ARPort(sint8 *val)",
     "{",
     "   uint8_t *p;",
     "   uint8_t i;",
     "   apx_nodeData_lockOutPortData(&m_nodeData);",
     "   p=&m_outPortdata[6];",
     "   for(i=0;i<1;i++)",
     "   {",
     "      *p=(uint8_t) val[i];",
     "      p++;",
     "   }",
     "   apx_nodeData_outPortDataWriteNotify(&m_nodeData, 6, 1, false);",
     "   return E_OK;",
     "}",
     "",
     "Std_ReturnType ApxNode_Write_Test_PS8Port(sint8 val)",
     "{",
     "   apx_nodeData_lockOutPortData(&m_nodeData);",
     "   m_outPortdata[7]=(uint8_t) val;",
     "   apx_nodeData_outPortDataWriteNotify(&m_nodeData, 7, 1, false);",
     "   return E_OK;",
     "}",
     "",
     "Std_ReturnType ApxNode_Write_Test_PU16ARPort(uint16 *val)",
     "{",
     "   uint8_t *p;",
     "   uint8_t i;",
     "   apx_nodeData_lockOutPortData(&m_nodeData);",
     "   p=&m_outPortdata[8];",
     "   for(i=0;i<4;i++)",
     "   {",
     "      packLE(p,(uint32_t) val[i],(uint8_t) sizeof(uint16_t));",
     "      p+=sizeof(uint16_t);",
     "   }",
     "   apx_nodeData_outPortDataWriteNotify(&m_nodeData, 8, 8, false);",
     "   return E_OK;",
     "}",
     "",
     "Std_ReturnType ApxNode_Write_Test_PU32Port(uint32 val)",
     "{",
     "   apx_nodeData_lockOutPortData(&m_nodeData);",
     "   packLE(&m_outPortdata[16],(uint32_t) val,(uint8_t) sizeof(uint32_t));",
     "   apx_nodeData_outPortDataWriteNotify(&m_nodeData, 16, 4, false);",
     "   return E_OK;",
     "}",
     "",
     "void Test_inPortDataWritten(void *arg, apx_nodeData_t *nodeData, uint32_t offset, uint32_t len)",
     "{",
     "   union data_tag",
     "   {",
     "      sint16 RS16ARPort[3];",
     "      uint8 RU8Port;",
     "      SoundRequest_T SoundRequest;",
     "   } data;",
     "   uint32_t endOffset = offset + len;",
     "",
     "   (void)arg;",
     "   (void)nodeData;",
     "",
     "   if (offset < APX_RX_OFFSET_RS16ARPORT)",
     "   {",
     "      offset = APX_RX_OFFSET_RS16ARPORT;",
     "   }",
     "   while (offset < endOffset)",
     "   {",
     "      switch(offset)",
     "      {",
     "      case APX_RX_OFFSET_RS16ARPORT:",
     "         (void) ApxNode_Read_Test_RS16ARPort(&data.RS16ARPort[0]);",
     "         RS16ARPort_cb_func(&data.RS16ARPort[0]);",
     "         offset += APX_RX_LEN_RS16ARPORT;",
     "         break;",
     "      case APX_RX_OFFSET_RS32PORT:",
     "         offset += APX_RX_LEN_RS32PORT;",
     "         break;",
     "      case APX_RX_OFFSET_RU8PORT:",
     "         (void) ApxNode_Read_Test_RU8Port(&data.RU8Port);",
     "         RU8Port_cb_func(data.RU8Port);",
     "         offset += APX_RX_LEN_RU8PORT;",
     "         break;",
     "      case APX_RX_OFFSET_RU8ARPORT:",
     "         offset += APX_RX_LEN_RU8ARPORT;",
     "         break;",
     "      case APX_RX_OFFSET_LIGHTREQUEST:",
     "         offset += APX_RX_LEN_LIGHTREQUEST;",
     "         break;",
     "      case APX_RX_OFFSET_SOUNDREQUEST:",
     "         (void) ApxNode_Read_Test_SoundRequest(&data.SoundRequest);",
     "         SoundRequest_cb_func(&data.SoundRequest);",
     "         offset += APX_RX_LEN_SOUNDREQUEST;",
     "         break;",
     "      //case APX_RX_OFFSET_RU8LASTPORT:",
     "      default:",
     "         offset = endOffset;",
     "      }",
     "   }",
     "}",
     "//////////////////////////////////////////////////////////////////////////////",
     "// LOCAL FUNCTIONS",
     "//////////////////////////////////////////////////////////////////////////////"],
    some (fileOf ["#ifndef APXNODE_TEST_CBK_H",
     "#define APXNODE_TEST_CBK_H",
     "",
     "//////////////////////////////////////////////////////////////////////////////",
     "// INCLUDES",
     "//////////////////////////////////////////////////////////////////////////////",
     "#include \"Rte_Type.h\"",
     "",
     "//////////////////////////////////////////////////////////////////////////////",
     "// FUNCTION PROTOTYPES",
     "//////////////////////////////////////////////////////////////////////////////",
     "void RS16ARPort_cb_func(sint16 *value);",
     "void RU8Port_cb_func(uint8 value);",
     "void SoundRequest_cb_func(SoundRequest_T *value);",
     "",
     "#endif //APXNODE_TEST_CBK_H"])) := by decide +kernel

-- generator_callback_first_test.py
set_option maxHeartbeats 0 in
example : (genTexts { callbacks := cbMap [("RS32Port", "RS32Port_cb_func")] } (nodeOf "TestCallbackFirst" [.R "RS32Port" "l" (some "=-2147483648"), .R "RU8Port" "C" (some "=255")])) =
    .ok (fileOf ["#ifndef APXNODE_TESTCALLBACKFIRST_H",
     "#define APXNODE_TESTCALLBACKFIRST_H",
     "",
     "#include <stdbool.h>",
     "#include \"apx_nodeData.h\"",
     "",
     "//////////////////////////////////////////////////////////////////////////////",
     "// CONSTANTS",
     "//////////////////////////////////////////////////////////////////////////////",
     "",
     "//////////////////////////////////////////////////////////////////////////////",
     "// FUNCTION PROTOTYPES",
     "//////////////////////////////////////////////////////////////////////////////",
     "apx_nodeData_t * ApxNode_Init_TestCallbackFirst(void);",
     "apx_nodeData_t * ApxNode_GetNodeData_TestCallbackFirst(void);",
     "bool ApxNode_IsConnected_TestCallbackFirst(void);",
     "",
     "Std_ReturnType ApxNode_Read_TestCallbackFirst_RS32Port(sint32 *val);",
     "Std_ReturnType ApxNode_Read_TestCallbackFirst_RU8Port(uint8 *val);",
     "void TestCallbackFirst_inPortDataWritten(void *arg, apx_nodeData_t *nodeData, uint32_t offset, uint32_t len);",
     "",
     "#endif //APXNODE_TESTCALLBACKFIRST_H"],
    fileOf ["/* TestCallbackFirst has been autogenerated by py-apx generator 0.4.1 */",
     "",
     "//////////////////////////////////////////////////////////////////////////////",
     "// INCLUDES",
     "//////////////////////////////////////////////////////////////////////////////",
     "#include <string.h>",
     "#include <stdio.h>",
     "#include \"ApxNode_TestCallbackFirst.h\"",
     "#include \"ApxNode_TestCallbackFirst_Cbk.h\"",
     "#include \"pack.h\"",
     "",
     "//////////////////////////////////////////////////////////////////////////////",
     "// CONSTANTS AND DATA TYPES",
     "//////////////////////////////////////////////////////////////////////////////",
     "#define APX_DEFINITON_LEN 73u",
     "#define APX_IN_PORT_DATA_LEN 5u",
     "#define APX_OUT_PORT_DATA_LEN 0u",
     "",
     "#define APX_RX_LEN_RU8PORT 1u",
     "#define APX_RX_LEN_RS32PORT 4u",
     "",
     "#define APX_RX_OFFSET_RS32PORT 0u",
     "#define APX_RX_OFFSET_RU8PORT 4u",
     "",
     "//////////////////////////////////////////////////////////////////////////////",
     "// LOCAL FUNCTIONS",
     "//////////////////////////////////////////////////////////////////////////////",
     "",
     "//////////////////////////////////////////////////////////////////////////////",
     "// LOCAL VARIABLES",
     "//////////////////////////////////////////////////////////////////////////////",
     "static const uint8_t m_inPortInitData[APX_IN_PORT_DATA_LEN]= {",
     "   0, 0, 0, 128, 255",
     "};",
     "",
     "static uint8_t m_inPortdata[APX_IN_PORT_DATA_LEN];",
     "static uint8_t m_inPortSyncedFlags[APX_IN_PORT_DATA_LEN];",
     "static apx_nodeData_t m_nodeData;",
     "static const char *m_apxDefinitionData=",
     "\"APX/1.2\\n\"",
     "\"N\\\"TestCallbackFirst\\\"\\n\"",
     "\"R\\\"RS32Port\\\"l:=-2147483648\\n\"",
     "\"R\\\"RU8Port\\\"C:=255\\n\"",
     "\"\\n\";",
     "",
     "//////////////////////////////////////////////////////////////////////////////",
     "// GLOBAL FUNCTIONS",
     "//////////////////////////////////////////////////////////////////////////////",
     "apx_nodeData_t * ApxNode_Init_TestCallbackFirst(void)",
     "{",
     "   apx_nodeDataHandlerTable_t nodeDataHandler;",
     "   memcpy(&m_inPortdata[0], &m_inPortInitData[0], APX_IN_PORT_DATA_LEN);",
     "   memset(&m_inPortSyncedFlags[0], 0, sizeof(m_inPortSyncedFlags));",
     "   apx_nodeData_create(&m_nodeData, \"TestCallbackFirst\", (uint8_t*) &m_apxDefinitionData[0], APX_DEFINITON_LEN, &m_inPortdata[0], &m_inPortSyncedFlags[0], APX_IN_PORT_DATA_LEN, 0, 0, 0);",
     "   memset(&nodeDataHandler, 0, sizeof(nodeDataHandler));",
     "   nodeDataHandler.inPortDataWritten = TestCallbackFirst_inPortDataWritten;",
     "   apx_nodeData_setHandlerTable(&m_nodeData, &nodeDataHandler);",
     "   return &m_nodeData;",
     "}",
     "",
     "apx_nodeData_t * ApxNode_GetNodeData_TestCallbackFirst(void)",
     "{",
     "   return &m_nodeData;",
     "}",
     "",
     "bool ApxNode_IsConnected_TestCallbackFirst(void)",
     "{",
     "   return apx_nodeData_isInPortDataOpen(&m_nodeData);",
     "}",
     "",
     "Std_ReturnType ApxNode_Read_TestCallbackFirst_RS32Port(sint32 *val)",
     "{",
     "   apx_nodeData_lockInPortData(&m_nodeData);",
     "   *val = (int32_t) unpackLE(&m_inPortdata[0],(uint8_t) sizeof(int32_t));",
     "   apx_nodeData_unlockInPortData(&m_nodeData);",
     "   return E_OK;",
     "}",
     "",
     "Std_ReturnType ApxNode_Read_TestCallbackFirst_RU8Port(uint8 *val)",
     "{",
     "   *val = (uint8_t) m_inPortdata[4];",
     "   return E_OK;",
     "}",
     "",
     "void TestCallbackFirst_inPortDataWritten(void *arg, apx_nodeData_t *nodeData, uint32_t offset, uint32_t len)",
     "{",
     "   union data_tag",
     "   {",
     "      sint32 RS32Port;",
     "   } data;",
     "   uint32_t endOffset = offset + len;",
     "",
     "   (void)arg;",
     "   (void)nodeData;",
     "",
     "   while (offset < endOffset)",
     "   {",
     "      switch(offset)",
     "      {",
     "      case APX_RX_OFFSET_RS32PORT:",
     "         (void) ApxNode_Read_TestCallbackFirst_RS32Port(&data.RS32Port);",
     "         RS32Port_cb_func(data.RS32Port);",
     "         offset += APX_RX_LEN_RS32PORT;",
     "         break;",
     "      //case APX_RX_OFFSET_RU8PORT:",
     "      default:",
     "         offset = endOffset;",
     "      }",
     "   }",
     "}",
     "//////////////////////////////////////////////////////////////////////////////",
     "// LOCAL FUNCTIONS",
     "//////////////////////////////////////////////////////////////////////////////"],
    some (fileOf ["#ifndef APXNODE_TESTCALLBACKFIRST_CBK_H",
     "#define APXNODE_TESTCALLBACKFIRST_CBK_H",
     "",
     "//////////////////////////////////////////////////////////////////////////////",
     "// INCLUDES",
     "//////////////////////////////////////////////////////////////////////////////",
     "#include \"Rte_Type.h\"",
     "",
     "//////////////////////////////////////////////////////////////////////////////",
     "// FUNCTION PROTOTYPES",
     "//////////////////////////////////////////////////////////////////////////////",
     "void RS32Port_cb_func(sint32 value);",
     "",
     "#endif //APXNODE_TESTCALLBACKFIRST_CBK_H"])) := by decide +kernel

-- generator_callback_last_test.py
set_option maxHeartbeats 0 in
example : (genTexts { callbacks := cbMap [("RU8Port", "RU8Port_cb_func")] } (nodeOf "TestCallbackLast" [.R "RS32Port" "l" (some "=-2147483648"), .R "RU8Port" "C" (some "=255")])) =
    .ok (fileOf ["#ifndef APXNODE_TESTCALLBACKLAST_H",
     "#define APXNODE_TESTCALLBACKLAST_H",
     "",
     "#include <stdbool.h>",
     "#include \"apx_nodeData.h\"",
     "",
     "//////////////////////////////////////////////////////////////////////////////",
     "// CONSTANTS",
     "//////////////////////////////////////////////////////////////////////////////",
     "",
     "//////////////////////////////////////////////////////////////////////////////",
     "// FUNCTION PROTOTYPES",
     "//////////////////////////////////////////////////////////////////////////////",
     "apx_nodeData_t * ApxNode_Init_TestCallbackLast(void);",
     "apx_nodeData_t * ApxNode_GetNodeData_TestCallbackLast(void);",
     "bool ApxNode_IsConnected_TestCallbackLast(void);",
     "",
     "Std_ReturnType ApxNode_Read_TestCallbackLast_RS32Port(sint32 *val);",
     "Std_ReturnType ApxNode_Read_TestCallbackLast_RU8Port(uint8 *val);",
     "void TestCallbackLast_inPortDataWritten(void *arg, apx_nodeData_t *nodeData, uint32_t offset, uint32_t len);",
     "",
     "#endif //APXNODE_TESTCALLBACKLAST_H"],
    fileOf ["/* TestCallbackLast has been autogenerated by py-apx generator 0.4.1 */",
     "",
     "//////////////////////////////////////////////////////////////////////////////",
     "// INCLUDES",
     "//////////////////////////////////////////////////////////////////////////////",
     "#include <string.h>",
     "#include <stdio.h>",
     "#include \"ApxNode_TestCallbackLast.h\"",
     "#include \"ApxNode_TestCallbackLast_Cbk.h\"",
     "#include \"pack.h\"",
     "",
     "//////////////////////////////////////////////////////////////////////////////",
     "// CONSTANTS AND DATA TYPES",
     "//////////////////////////////////////////////////////////////////////////////",
     "#define APX_DEFINITON_LEN 72u",
     "#define APX_IN_PORT_DATA_LEN 5u",
     "#define APX_OUT_PORT_DATA_LEN 0u",
     "",
     "#define APX_RX_LEN_RU8PORT 1u",
     "#define APX_RX_LEN_RS32PORT 4u",
     "",
     "#define APX_RX_OFFSET_RS32PORT 0u",
     "#define APX_RX_OFFSET_RU8PORT 4u",
     "",
     "//////////////////////////////////////////////////////////////////////////////",
     "// LOCAL FUNCTIONS",
     "//////////////////////////////////////////////////////////////////////////////",
     "",
     "//////////////////////////////////////////////////////////////////////////////",
     "// LOCAL VARIABLES",
     "//////////////////////////////////////////////////////////////////////////////",
     "static const uint8_t m_inPortInitData[APX_IN_PORT_DATA_LEN]= {",
     "   0, 0, 0, 128, 255",
     "};",
     "",
     "static uint8_t m_inPortdata[APX_IN_PORT_DATA_LEN];",
     "static uint8_t m_inPortSyncedFlags[APX_IN_PORT_DATA_LEN];",
     "static apx_nodeData_t m_nodeData;",
     "static const char *m_apxDefinitionData=",
     "\"APX/1.2\\n\"",
     "\"N\\\"TestCallbackLast\\\"\\n\"",
     "\"R\\\"RS32Port\\\"l:=-2147483648\\n\"",
     "\"R\\\"RU8Port\\\"C:=255\\n\"",
     "\"\\n\";",
     "",
     "//////////////////////////////////////////////////////////////////////////////",
     "// GLOBAL FUNCTIONS",
     "//////////////////////////////////////////////////////////////////////////////",
     "apx_nodeData_t * ApxNode_Init_TestCallbackLast(void)",
     "{",
     "   apx_nodeDataHandlerTable_t nodeDataHandler;",
     "   memcpy(&m_inPortdata[0], &m_inPortInitData[0], APX_IN_PORT_DATA_LEN);",
     "   memset(&m_inPortSyncedFlags[0], 0, sizeof(m_inPortSyncedFlags));",
     "   apx_nodeData_create(&m_nodeData, \"TestCallbackLast\", (uint8_t*) &m_apxDefinitionData[0], APX_DEFINITON_LEN, &m_inPortdata[0], &m_inPortSyncedFlags[0], APX_IN_PORT_DATA_LEN, 0, 0, 0);",
     "   memset(&nodeDataHandler, 0, sizeof(nodeDataHandler));",
     "   nodeDataHandler.inPortDataWritten = TestCallbackLast_inPortDataWritten;",
     "   apx_nodeData_setHandlerTable(&m_nodeData, &nodeDataHandler);",
     "   return &m_nodeData;",
     "}",
     "",
     "apx_nodeData_t * ApxNode_GetNodeData_TestCallbackLast(void)",
     "{",
     "   return &m_nodeData;",
     "}",
     "",
     "bool ApxNode_IsConnected_TestCallbackLast(void)",
     "{",
     "   return apx_nodeData_isInPortDataOpen(&m_nodeData);",
     "}",
     "",
     "Std_ReturnType ApxNode_Read_TestCallbackLast_RS32Port(sint32 *val)",
     "{",
     "   apx_nodeData_lockInPortData(&m_nodeData);",
     "   *val = (int32_t) unpackLE(&m_inPortdata[0],(uint8_t) sizeof(int32_t));",
     "   apx_nodeData_unlockInPortData(&m_nodeData);",
     "   return E_OK;",
     "}",
     "",
     "Std_ReturnType ApxNode_Read_TestCallbackLast_RU8Port(uint8 *val)",
     "{",
     "   *val = (uint8_t) m_inPortdata[4];",
     "   return E_OK;",
     "}",
     "",
     "void TestCallbackLast_inPortDataWritten(void *arg, apx_nodeData_t *nodeData, uint32_t offset, uint32_t len)",
     "{",
     "   union data_tag",
     "   {",
     "      uint8 RU8Port;",
     "   } data;",
     "   uint32_t endOffset = offset + len;",
     "",
     "   (void)arg;",
     "   (void)nodeData;",
     "",
     "   if (offset < APX_RX_OFFSET_RU8PORT)",
     "   {",
     "      offset = APX_RX_OFFSET_RU8PORT;",
     "   }",
     "   while (offset < endOffset)",
     "   {",
     "      switch(offset)",
     "      {",
     "      case APX_RX_OFFSET_RU8PORT:",
     "         (void) ApxNode_Read_TestCallbackLast_RU8Port(&data.RU8Port);",
     "         RU8Port_cb_func(data.RU8Port);",
     "         offset += APX_RX_LEN_RU8PORT;",
     "         break;",
     "      default:",
     "         offset = endOffset;",
     "      }",
     "   }",
     "}",
     "//////////////////////////////////////////////////////////////////////////////",
     "// LOCAL FUNCTIONS",
     "//////////////////////////////////////////////////////////////////////////////"],
    some (fileOf ["#ifndef APXNODE_TESTCALLBACKLAST_CBK_H",
     "#define APXNODE_TESTCALLBACKLAST_CBK_H",
     "",
     "//////////////////////////////////////////////////////////////////////////////",
     "// INCLUDES",
     "//////////////////////////////////////////////////////////////////////////////",
     "#include \"Rte_Type.h\"",
     "",
     "//////////////////////////////////////////////////////////////////////////////",
     "// FUNCTION PROTOTYPES",
     "//////////////////////////////////////////////////////////////////////////////",
     "void RU8Port_cb_func(uint8 value);",
     "",
     "#endif //APXNODE_TESTCALLBACKLAST_CBK_H"])) := by decide +kernel

-- generator_simple_test.py
set_option maxHeartbeats 0 in
example : (genTexts {} (nodeOf "TestSimple" [.R "RS32Port" "l" (some "=-2147483648"), .R "RU8Port" "C" (some "=255"),
      .R "PS16ARPort256" "s[256]" none, .P "PS16ARPort256" "s[256]" none, .P "PS8Port" "c" (some "=-1"),
      .P "PU32Port" "L" (some "=4294967295")])) =
    .ok (fileOf ["#ifndef APXNODE_TESTSIMPLE_H",
     "#define APXNODE_TESTSIMPLE_H",
     "",
     "#include <stdbool.h>",
     "#include \"apx_nodeData.h\"",
     "",
     "//////////////////////////////////////////////////////////////////////////////",
     "// CONSTANTS",
     "//////////////////////////////////////////////////////////////////////////////",
     "",
     "//////////////////////////////////////////////////////////////////////////////",
     "// FUNCTION PROTOTYPES",
     "//////////////////////////////////////////////////////////////////////////////",
     "apx_nodeData_t * ApxNode_Init_TestSimple(void);",
     "apx_nodeData_t * ApxNode_GetNodeData_TestSimple(void);",
     "bool ApxNode_IsConnected_TestSimple(void);",
     "",
     "Std_ReturnType ApxNode_Read_TestSimple_PS16ARPort256(sint16 *val);",
     "Std_ReturnType ApxNode_Read_TestSimple_RS32Port(sint32 *val);",
     "Std_ReturnType ApxNode_Read_TestSimple_RU8Port(uint8 *val);",
     "Std_ReturnType ApxNode_Write_TestSimple_PS16ARPort256(sint16 *val);",
     "Std_ReturnType ApxNode_Write_TestSimple_PS8Port(sint8 val);",
     "Std_ReturnType ApxNode_Write_TestSimple_PU32Port(uint32 val);",
     "void TestSimple_inPortDataWritten(void *arg, apx_nodeData_t *nodeData, uint32_t offset, uint32_t len);",
     "",
     "#endif //APXNODE_TESTSIMPLE_H"],
    fileOf ["/* TestSimple has been autogenerated by py-apx generator 0.4.1 */",
     "",
     "//////////////////////////////////////////////////////////////////////////////",
     "// INCLUDES",
     "//////////////////////////////////////////////////////////////////////////////",
     "#include <string.h>",
     "#include <stdio.h>",
     "#include \"ApxNode_TestSimple.h\"",
     "#include \"pack.h\"",
     "",
     "//////////////////////////////////////////////////////////////////////////////",
     "// CONSTANTS AND DATA TYPES",
     "//////////////////////////////////////////////////////////////////////////////",
     "#define APX_DEFINITON_LEN 153u",
     "#define APX_IN_PORT_DATA_LEN 517u",
     "#define APX_OUT_PORT_DATA_LEN 517u",
     "",
     "//////////////////////////////////////////////////////////////////////////////",
     "// LOCAL FUNCTIONS",
     "//////////////////////////////////////////////////////////////////////////////",
     "",
     "//////////////////////////////////////////////////////////////////////////////",
     "// LOCAL VARIABLES",
     "//////////////////////////////////////////////////////////////////////////////",
     "static const uint8_t m_outPortInitData[APX_OUT_PORT_DATA_LEN]= {",
     "   0, 0, 0, 0, 0, 0, 0, 0, 0, 0, 0, 0, 0, 0, 0, 0, 0, 0, 0, 0, 0, 0, 0, 0, 0, 0, 0, 0, 0, 0, 0, 0,",
     "   0, 0, 0, 0, 0, 0, 0, 0, 0, 0, 0, 0, 0, 0, 0, 0, 0, 0, 0, 0, 0, 0, 0, 0, 0, 0, 0, 0, 0, 0, 0, 0,",
     "   0, 0, 0, 0, 0, 0, 0, 0, 0, 0, 0, 0, 0, 0, 0, 0, 0, 0, 0, 0, 0, 0, 0, 0, 0, 0, 0, 0, 0, 0, 0, 0,",
     "   0, 0, 0, 0, 0, 0, 0, 0, 0, 0, 0, 0, 0, 0, 0, 0, 0, 0, 0, 0, 0, 0, 0, 0, 0, 0, 0, 0, 0, 0, 0, 0,",
     "   0, 0, 0, 0, 0, 0, 0, 0, 0, 0, 0, 0, 0, 0, 0, 0, 0, 0, 0, 0, 0, 0, 0, 0, 0, 0, 0, 0, 0, 0, 0, 0,",
     "   0, 0, 0, 0, 0, 0, 0, 0, 0, 0, 0, 0, 0, 0, 0, 0, 0, 0, 0, 0, 0, 0, 0, 0, 0, 0, 0, 0, 0, 0, 0, 0,",
     "   0, 0, 0, 0, 0, 0, 0, 0, 0, 0, 0, 0, 0, 0, 0, 0, 0, 0, 0, 0, 0, 0, 0, 0, 0, 0, 0, 0, 0, 0, 0, 0,",
     "   0, 0, 0, 0, 0, 0, 0, 0, 0, 0, 0, 0, 0, 0, 0, 0, 0, 0, 0, 0, 0, 0, 0, 0, 0, 0, 0, 0, 0, 0, 0, 0,",
     "   0, 0, 0, 0, 0, 0, 0, 0, 0, 0, 0, 0, 0, 0, 0, 0, 0, 0, 0, 0, 0, 0, 0, 0, 0, 0, 0, 0, 0, 0, 0, 0,",
     "   0, 0, 0, 0, 0, 0, 0, 0, 0, 0, 0, 0, 0, 0, 0, 0, 0, 0, 0, 0, 0, 0, 0, 0, 0, 0, 0, 0, 0, 0, 0, 0,",
     "   0, 0, 0, 0, 0, 0, 0, 0, 0, 0, 0, 0, 0, 0, 0, 0, 0, 0, 0, 0, 0, 0, 0, 0, 0, 0, 0, 0, 0, 0, 0, 0,",
     "   0, 0, 0, 0, 0, 0, 0, 0, 0, 0, 0, 0, 0, 0, 0, 0, 0, 0, 0, 0, 0, 0, 0, 0, 0, 0, 0, 0, 0, 0, 0, 0,",
     "   0, 0, 0, 0, 0, 0, 0, 0, 0, 0, 0, 0, 0, 0, 0, 0, 0, 0, 0, 0, 0, 0, 0, 0, 0, 0, 0, 0, 0, 0, 0, 0,",
     "   0, 0, 0, 0, 0, 0, 0, 0, 0, 0, 0, 0, 0, 0, 0, 0, 0, 0, 0, 0, 0, 0, 0, 0, 0, 0, 0, 0, 0, 0, 0, 0,",
     "   0, 0, 0, 0, 0, 0, 0, 0, 0, 0, 0, 0, 0, 0, 0, 0, 0, 0, 0, 0, 0, 0, 0, 0, 0, 0, 0, 0, 0, 0, 0, 0,",
     "   0, 0, 0, 0, 0, 0, 0, 0, 0, 0, 0, 0, 0, 0, 0, 0, 0, 0, 0, 0, 0, 0, 0, 0, 0, 0, 0, 0, 0, 0, 0, 0,",
     "   255, 255, 255, 255, 255",
     "};",
     "",
     "static uint8_t m_outPortdata[APX_OUT_PORT_DATA_LEN];",
     "static uint8_t m_outPortDirtyFlags[APX_OUT_PORT_DATA_LEN];",
     "static const uint8_t m_inPortInitData[APX_IN_PORT_DATA_LEN]= {",
     "   0, 0, 0, 0, 0, 0, 0, 0, 0, 0, 0, 0, 0, 0, 0, 0, 0, 0, 0, 0, 0, 0, 0, 0, 0, 0, 0, 0, 0, 0, 0, 0,",
     "   0, 0, 0, 0, 0, 0, 0, 0, 0, 0, 0, 0, 0, 0, 0, 0, 0, 0, 0, 0, 0, 0, 0, 0, 0, 0, 0, 0, 0, 0, 0, 0,",
     "   0, 0, 0, 0, 0, 0, 0, 0, 0, 0, 0, 0, 0, 0, 0, 0, 0, 0, 0, 0, 0, 0, 0, 0, 0, 0, 0, 0, 0, 0, 0, 0,",
     "   0, 0, 0, 0, 0, 0, 0, 0, 0, 0, 0, 0, 0, 0, 0, 0, 0, 0, 0, 0, 0, 0, 0, 0, 0, 0, 0, 0, 0, 0, 0, 0,",
     "   0, 0, 0, 0, 0, 0, 0, 0, 0, 0, 0, 0, 0, 0, 0, 0, 0, 0, 0, 0, 0, 0, 0, 0, 0, 0, 0, 0, 0, 0, 0, 0,",
     "   0, 0, 0, 0, 0, 0, 0, 0, 0, 0, 0, 0, 0, 0, 0, 0, 0, 0, 0, 0, 0, 0, 0, 0, 0, 0, 0, 0, 0, 0, 0, 0,",
     "   0, 0, 0, 0, 0, 0, 0, 0, 0, 0, 0, 0, 0, 0, 0, 0, 0, 0, 0, 0, 0, 0, 0, 0, 0, 0, 0, 0, 0, 0, 0, 0,",
     "   0, 0, 0, 0, 0, 0, 0, 0, 0, 0, 0, 0, 0, 0, 0, 0, 0, 0, 0, 0, 0, 0, 0, 0, 0, 0, 0, 0, 0, 0, 0, 0,",
     "   0, 0, 0, 0, 0, 0, 0, 0, 0, 0, 0, 0, 0, 0, 0, 0, 0, 0, 0, 0, 0, 0, 0, 0, 0, 0, 0, 0, 0, 0, 0, 0,",
     "   0, 0, 0, 0, 0, 0, 0, 0, 0, 0, 0, 0, 0, 0, 0, 0, 0, 0, 0, 0, 0, 0, 0, 0, 0, 0, 0, 0, 0, 0, 0, 0,",
     "   0, 0, 0, 0, 0, 0, 0, 0, 0, 0, 0, 0, 0, 0, 0, 0, 0, 0, 0, 0, 0, 0, 0, 0, 0, 0, 0, 0, 0, 0, 0, 0,",
     "   0, 0, 0, 0, 0, 0, 0, 0, 0, 0, 0, 0, 0, 0, 0, 0, 0, 0, 0, 0, 0, 0, 0, 0, 0, 0, 0, 0, 0, 0, 0, 0,",
     "   0, 0, 0, 0, 0, 0, 0, 0, 0, 0, 0, 0, 0, 0, 0, 0, 0, 0, 0, 0, 0, 0, 0, 0, 0, 0, 0, 0, 0, 0, 0, 0,",
     "   0, 0, 0, 0, 0, 0, 0, 0, 0, 0, 0, 0, 0, 0, 0, 0, 0, 0, 0, 0, 0, 0, 0, 0, 0, 0, 0, 0, 0, 0, 0, 0,",
     "   0, 0, 0, 0, 0, 0, 0, 0, 0, 0, 0, 0, 0, 0, 0, 0, 0, 0, 0, 0, 0, 0, 0, 0, 0, 0, 0, 0, 0, 0, 0, 0,",
     "   0, 0, 0, 0, 0, 0, 0, 0, 0, 0, 0, 0, 0, 0, 0, 0, 0, 0, 0, 0, 0, 0, 0, 0, 0, 0, 0, 0, 0, 0, 0, 0,",
     "   0, 0, 0, 128, 255",
     "};",
     "",
     "static uint8_t m_inPortdata[APX_IN_PORT_DATA_LEN];",
     "static uint8_t m_inPortSyncedFlags[APX_IN_PORT_DATA_LEN];",
     "static apx_nodeData_t m_nodeData;",
     "static const char *m_apxDefinitionData=",
     "\"APX/1.2\\n\"",
     "\"N\\\"TestSimple\\\"\\n\"",
     "\"P\\\"PS16ARPort256\\\"s[256]\\n\"",
     "\"P\\\"PS8Port\\\"c:=-1\\n\"",
     "\"P\\\"PU32Port\\\"L:=4294967295\\n\"",
     "\"R\\\"PS16ARPort256\\\"s[256]\\n\"",
     "\"R\\\"RS32Port\\\"l:=-2147483648\\n\"",
     "\"R\\\"RU8Port\\\"C:=255\\n\"",
     "\"\\n\";",
     "",
     "//////////////////////////////////////////////////////////////////////////////",
     "// GLOBAL FUNCTIONS",
     "//////////////////////////////////////////////////////////////////////////////",
     "apx_nodeData_t * ApxNode_Init_TestSimple(void)",
     "{",
     "   memcpy(&m_inPortdata[0], &m_inPortInitData[0], APX_IN_PORT_DATA_LEN);",
     "   memset(&m_inPortSyncedFlags[0], 0, sizeof(m_inPortSyncedFlags));",
     "   memcpy(&m_outPortdata[0], &m_outPortInitData[0], APX_OUT_PORT_DATA_LEN);",
     "   memset(&m_outPortDirtyFlags[0], 0, sizeof(m_outPortDirtyFlags));",
     "   apx_nodeData_create(&m_nodeData, \"TestSimple\", (uint8_t*) &m_apxDefinitionData[0], APX_DEFINITON_LEN, &m_inPortdata[0], &m_inPortSyncedFlags[0], APX_IN_PORT_DATA_LEN, &m_outPortdata[0], &m_outPortDirtyFlags[0], APX_OUT_PORT_DATA_LEN);",
     "   return &m_nodeData;",
     "}",
     "",
     "apx_nodeData_t * ApxNode_GetNodeData_TestSimple(void)",
     "{",
     "   return &m_nodeData;",
     "}",
     "",
     "bool ApxNode_IsConnected_TestSimple(void)",
     "{",
     "   return ( apx_nodeData_isInPortDataOpen(&m_nodeData) && apx_nodeData_isOutPortDataOpen(&m_nodeData) );",
     "}",
     "",
     "Std_ReturnType ApxNode_Read_TestSimple_PS16ARPort256(sint16 *val)",
     "{",
     "   uint8_t *p;",
     "   uint16_t i;",
     "   apx_nodeData_lockInPortData(&m_nodeData);",
     "   p=&m_inPortdata[0];",
     "   for(i=0;i<256;i++)",
     "   {",
     "      val[i] = (int16_t) unpackLE(p,(uint8_t) sizeof(int16_t));",
     "      p+=sizeof(int16_t);",
     "   }",
     "   apx_nodeData_unlockInPortData(&m_nodeData);",
     "   return E_OK;",
     "}",
     "",
     "Std_ReturnType ApxNode_Read_TestSimple_RS32Port(sint32 *val)",
     "{",
     "   apx_nodeData_lockInPortData(&m_nodeData);",
     "   *val = (int32_t) unpackLE(&m_inPortdata[512],(uint8_t) sizeof(int32_t));",
     "   apx_nodeData_unlockInPortData(&m_nodeData);",
     "   return E_OK;",
     "}",
     "",
     "Std_ReturnType ApxNode_Read_TestSimple_RU8Port(uint8 *val)",
     "{",
     "   *val = (uint8_t) m_inPortdata[516];",
     "   return E_OK;",
     "}",
     "",
     "Std_ReturnType ApxNode_Write_TestSimple_PS16ARPort256(sint16 *val)",
     "{",
     "   uint8_t *p;",
     "   uint16_t i;",
     "   apx_nodeData_lockOutPortData(&m_nodeData);",
     "   p=&m_outPortdata[0];",
     "   for(i=0;i<256;i++)",
     "   {",
     "      packLE(p,(uint32_t) val[i],(uint8_t) sizeof(int16_t));",
     "      p+=sizeof(int16_t);",
     "   }",
     "   apx_nodeData_outPortDataWriteNotify(&m_nodeData, 0, 512, false);",
     "   return E_OK;",
     "}",
     "",
     "Std_ReturnType ApxNode_Write_TestSimple_PS8Port(sint8 val)",
     "{",
     "   apx_nodeData_lockOutPortData(&m_nodeData);",
     "   m_outPortdata[512]=(uint8_t) val;",
     "   apx_nodeData_outPortDataWriteNotify(&m_nodeData, 512, 1, false);",
     "   return E_OK;",
     "}",
     "",
     "Std_ReturnType ApxNode_Write_TestSimple_PU32Port(uint32 val)",
     "{",
     "   apx_nodeData_lockOutPortData(&m_nodeData);",
     "   packLE(&m_outPortdata[513],(uint32_t) val,(uint8_t) sizeof(uint32_t));",
     "   apx_nodeData_outPortDataWriteNotify(&m_nodeData, 513, 4, false);",
     "   return E_OK;",
     "}",
     "",
     "void TestSimple_inPortDataWritten(void *arg, apx_nodeData_t *nodeData, uint32_t offset, uint32_t len)",
     "{",
     "   (void)arg;",
     "   (void)nodeData;",
     "   (void)offset;",
     "   (void)len;",
     "}",
     "//////////////////////////////////////////////////////////////////////////////",
     "// LOCAL FUNCTIONS",
     "//////////////////////////////////////////////////////////////////////////////"],
    none) := by decide +kernel

-- generator_simple_test-p-only.py
set_option maxHeartbeats 0 in
example : (genTexts {} (nodeOf "TestSimpleOnlyP" [.P "PS8Port" "c" (some "=-1")])) =
    .ok (fileOf ["#ifndef APXNODE_TESTSIMPLEONLYP_H",
     "#define APXNODE_TESTSIMPLEONLYP_H",
     "",
     "#include <stdbool.h>",
     "#include \"apx_nodeData.h\"",
     "",
     "//////////////////////////////////////////////////////////////////////////////",
     "// CONSTANTS",
     "//////////////////////////////////////////////////////////////////////////////",
     "",
     "//////////////////////////////////////////////////////////////////////////////",
     "// FUNCTION PROTOTYPES",
     "//////////////////////////////////////////////////////////////////////////////",
     "apx_nodeData_t * ApxNode_Init_TestSimpleOnlyP(void);",
     "apx_nodeData_t * ApxNode_GetNodeData_TestSimpleOnlyP(void);",
     "bool ApxNode_IsConnected_TestSimpleOnlyP(void);",
     "",
     "Std_ReturnType ApxNode_Write_TestSimpleOnlyP_PS8Port(sint8 val);",
     "",
     "#endif //APXNODE_TESTSIMPLEONLYP_H"],
    fileOf ["/* TestSimpleOnlyP has been autogenerated by py-apx generator 0.4.1 */",
     "",
     "//////////////////////////////////////////////////////////////////////////////",
     "// INCLUDES",
     "//////////////////////////////////////////////////////////////////////////////",
     "#include <string.h>",
     "#include <stdio.h>",
     "#include \"ApxNode_TestSimpleOnlyP.h\"",
     "#include \"pack.h\"",
     "",
     "//////////////////////////////////////////////////////////////////////////////",
     "// CONSTANTS AND DATA TYPES",
     "//////////////////////////////////////////////////////////////////////////////",
     "#define APX_DEFINITON_LEN 44u",
     "#define APX_IN_PORT_DATA_LEN 0u",
     "#define APX_OUT_PORT_DATA_LEN 1u",
     "",
     "//////////////////////////////////////////////////////////////////////////////",
     "// LOCAL FUNCTIONS",
     "//////////////////////////////////////////////////////////////////////////////",
     "",
     "//////////////////////////////////////////////////////////////////////////////",
     "// LOCAL VARIABLES",
     "//////////////////////////////////////////////////////////////////////////////",
     "static const uint8_t m_outPortInitData[APX_OUT_PORT_DATA_LEN]= {",
     "   255",
     "};",
     "",
     "static uint8_t m_outPortdata[APX_OUT_PORT_DATA_LEN];",
     "static uint8_t m_outPortDirtyFlags[APX_OUT_PORT_DATA_LEN];",
     "static apx_nodeData_t m_nodeData;",
     "static const char *m_apxDefinitionData=",
     "\"APX/1.2\\n\"",
     "\"N\\\"TestSimpleOnlyP\\\"\\n\"",
     "\"P\\\"PS8Port\\\"c:=-1\\n\"",
     "\"\\n\";",
     "",
     "//////////////////////////////////////////////////////////////////////////////",
     "// GLOBAL FUNCTIONS",
     "//////////////////////////////////////////////////////////////////////////////",
     "apx_nodeData_t * ApxNode_Init_TestSimpleOnlyP(void)",
     "{",
     "   memcpy(&m_outPortdata[0], &m_outPortInitData[0], APX_OUT_PORT_DATA_LEN);",
     "   memset(&m_outPortDirtyFlags[0], 0, sizeof(m_outPortDirtyFlags));",
     "   apx_nodeData_create(&m_nodeData, \"TestSimpleOnlyP\", (uint8_t*) &m_apxDefinitionData[0], APX_DEFINITON_LEN, 0, 0, 0, &m_outPortdata[0], &m_outPortDirtyFlags[0], APX_OUT_PORT_DATA_LEN);",
     "   return &m_nodeData;",
     "}",
     "",
     "apx_nodeData_t * ApxNode_GetNodeData_TestSimpleOnlyP(void)",
     "{",
     "   return &m_nodeData;",
     "}",
     "",
     "bool ApxNode_IsConnected_TestSimpleOnlyP(void)",
     "{",
     "   return apx_nodeData_isOutPortDataOpen(&m_nodeData);",
     "}",
     "",
     "Std_ReturnType ApxNode_Write_TestSimpleOnlyP_PS8Port(sint8 val)",
     "{",
     "   apx_nodeData_lockOutPortData(&m_nodeData);",
     "   m_outPortdata[0]=(uint8_t) val;",
     "   apx_nodeData_outPortDataWriteNotify(&m_nodeData, 0, 1, false);",
     "   return E_OK;",
     "}",
     "",
     "//////////////////////////////////////////////////////////////////////////////",
     "// LOCAL FUNCTIONS",
     "//////////////////////////////////////////////////////////////////////////////"],
    none) := by decide +kernel

-- generator_simple_test-r-only.py
set_option maxHeartbeats 0 in
example : (genTexts { flags := false } (nodeOf "TestSimpleOnlyR" [.R "RU16Port" "S" (some "=0xffFF")])) =
    .ok (fileOf ["#ifndef APXNODE_TESTSIMPLEONLYR_H",
     "#define APXNODE_TESTSIMPLEONLYR_H",
     "",
     "#include <stdbool.h>",
     "#include \"apx_nodeData.h\"",
     "",
     "//////////////////////////////////////////////////////////////////////////////",
     "// CONSTANTS",
     "//////////////////////////////////////////////////////////////////////////////",
     "",
     "//////////////////////////////////////////////////////////////////////////////",
     "// FUNCTION PROTOTYPES",
     "//////////////////////////////////////////////////////////////////////////////",
     "apx_nodeData_t * ApxNode_Init_TestSimpleOnlyR(void);",
     "apx_nodeData_t * ApxNode_GetNodeData_TestSimpleOnlyR(void);",
     "bool ApxNode_IsConnected_TestSimpleOnlyR(void);",
     "",
     "Std_ReturnType ApxNode_Read_TestSimpleOnlyR_RU16Port(uint16 *val);",
     "void TestSimpleOnlyR_inPortDataWritten(void *arg, apx_nodeData_t *nodeData, uint32_t offset, uint32_t len);",
     "",
     "#endif //APXNODE_TESTSIMPLEONLYR_H"],
    fileOf ["/* TestSimpleOnlyR has been autogenerated by py-apx generator 0.4.1 */",
     "",
     "//////////////////////////////////////////////////////////////////////////////",
     "// INCLUDES",
     "//////////////////////////////////////////////////////////////////////////////",
     "#include <string.h>",
     "#include <stdio.h>",
     "#include \"ApxNode_TestSimpleOnlyR.h\"",
     "#include \"pack.h\"",
     "",
     "//////////////////////////////////////////////////////////////////////////////",
     "// CONSTANTS AND DATA TYPES",
     "//////////////////////////////////////////////////////////////////////////////",
     "#define APX_DEFINITON_LEN 49u",
     "#define APX_IN_PORT_DATA_LEN 2u",
     "#define APX_OUT_PORT_DATA_LEN 0u",
     "",
     "//////////////////////////////////////////////////////////////////////////////",
     "// LOCAL FUNCTIONS",
     "//////////////////////////////////////////////////////////////////////////////",
     "",
     "//////////////////////////////////////////////////////////////////////////////",
     "// LOCAL VARIABLES",
     "//////////////////////////////////////////////////////////////////////////////",
     "static const uint8_t m_inPortInitData[APX_IN_PORT_DATA_LEN]= {",
     "   255, 255",
     "};",
     "",
     "static uint8_t m_inPortdata[APX_IN_PORT_DATA_LEN];",
     "static apx_nodeData_t m_nodeData;",
     "static const char *m_apxDefinitionData=",
     "\"APX/1.2\\n\"",
     "\"N\\\"TestSimpleOnlyR\\\"\\n\"",
     "\"R\\\"RU16Port\\\"S:=0xffFF\\n\"",
     "\"\\n\";",
     "",
     "//////////////////////////////////////////////////////////////////////////////",
     "// GLOBAL FUNCTIONS",
     "//////////////////////////////////////////////////////////////////////////////",
     "apx_nodeData_t * ApxNode_Init_TestSimpleOnlyR(void)",
     "{",
     "   memcpy(&m_inPortdata[0], &m_inPortInitData[0], APX_IN_PORT_DATA_LEN);",
     "   apx_nodeData_create(&m_nodeData, \"TestSimpleOnlyR\", (uint8_t*) &m_apxDefinitionData[0], APX_DEFINITON_LEN, &m_inPortdata[0], NULL, APX_IN_PORT_DATA_LEN, 0, 0, 0);",
     "   return &m_nodeData;",
     "}",
     "",
     "apx_nodeData_t * ApxNode_GetNodeData_TestSimpleOnlyR(void)",
     "{",
     "   return &m_nodeData;",
     "}",
     "",
     "bool ApxNode_IsConnected_TestSimpleOnlyR(void)",
     "{",
     "   return apx_nodeData_isInPortDataOpen(&m_nodeData);",
     "}",
     "",
     "Std_ReturnType ApxNode_Read_TestSimpleOnlyR_RU16Port(uint16 *val)",
     "{",
     "   apx_nodeData_lockInPortData(&m_nodeData);",
     "   *val = (uint16_t) unpackLE(&m_inPortdata[0],(uint8_t) sizeof(uint16_t));",
     "   apx_nodeData_unlockInPortData(&m_nodeData);",
     "   return E_OK;",
     "}",
     "",
     "void TestSimpleOnlyR_inPortDataWritten(void *arg, apx_nodeData_t *nodeData, uint32_t offset, uint32_t len)",
     "{",
     "   (void)arg;",
     "   (void)nodeData;",
     "   (void)offset;",
     "   (void)len;",
     "}",
     "//////////////////////////////////////////////////////////////////////////////",
     "// LOCAL FUNCTIONS",
     "//////////////////////////////////////////////////////////////////////////////"],
    none) := by decide +kernel

end Apx.Conformance
