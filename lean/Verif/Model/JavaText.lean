/-
The texts of the Java files that do not depend on the model.
-/
namespace Sadl

/-- java/java_util.go:15-120 `javaUtil`. -/
def javaUtilText : String :=
  "\n" ++
  "import com.fasterxml.jackson.annotation.JsonInclude;\n" ++
  "import com.fasterxml.jackson.annotation.JsonInclude.Include;\n" ++
  "import com.fasterxml.jackson.databind.DeserializationContext;\n" ++
  "import com.fasterxml.jackson.databind.ObjectMapper;\n" ++
  "import com.fasterxml.jackson.databind.SerializationFeature;\n" ++
  "import com.fasterxml.jackson.databind.DeserializationFeature;\n" ++
  "import com.fasterxml.jackson.databind.JsonSerializer;\n" ++
  "import com.fasterxml.jackson.databind.JsonDeserializer;\n" ++
  "import com.fasterxml.jackson.core.JsonParser;\n" ++
  "import com.fasterxml.jackson.core.JsonGenerator;\n" ++
  "import com.fasterxml.jackson.core.JsonProcessingException;\n" ++
  "import com.fasterxml.jackson.databind.SerializerProvider;\n" ++
  "import javax.ws.rs.ext.ParamConverter;\n" ++
  "import javax.ws.rs.ext.ParamConverterProvider;\n" ++
  "import javax.ws.rs.ext.Provider;\n" ++
  "import java.lang.annotation.Annotation;\n" ++
  "import java.lang.reflect.Type;\n" ++
  "import java.time.Instant;\n" ++
  "import java.util.UUID;\n" ++
  "import java.io.IOException;\n" ++
  "\n" ++
  "public class Util {\n" ++
  "\n" ++
  "    static final ObjectMapper om = initMapper();\n" ++
  "    static ObjectMapper initMapper() {\n" ++
  "        ObjectMapper om = new ObjectMapper();\n" ++
  "        om.setDefaultPropertyInclusion(JsonInclude.Value.construct(Include.ALWAYS, Include.NON_NULL));\n" ++
  "        om.configure(DeserializationFeature.FAIL_ON_UNKNOWN_PROPERTIES, false);\n" ++
  "        return om;\n" ++
  "    }\n" ++
  "\n" ++
  "    public static <T> T fromJson(String jsonData, Class<T> dataType) {\n" ++
  "        try {\n" ++
  "            return om.readerFor(dataType).readValue(jsonData);\n" ++
  "        } catch (Exception e) {\n" ++
  "            e.printStackTrace();\n" ++
  "            return null;\n" ++
  "        }\n" ++
  "    }\n" ++
  "\n" ++
  "    public static String toJson(Object o) {\n" ++
  "        try {\n" ++
  "            Class<?> cls = (o == null)? Object.class : o.getClass();\n" ++
  "            return om.writerWithView(cls).writeValueAsString(o);\n" ++
  "        } catch (Exception e) {\n" ++
  "            e.printStackTrace();\n" ++
  "            return \"?\";\n" ++
  "        }\n" ++
  "    }\n" ++
  "\n" ++
  "    public static String pretty(Object o) {\n" ++
  "        try {\n" ++
  "            Class<?> cls = (o == null)? Object.class : o.getClass();\n" ++
  "            return om.writerWithView(cls).with(SerializationFeature.INDENT_OUTPUT).writeValueAsString(o);\n" ++
  "        } catch (Exception e) {\n" ++
  "            e.printStackTrace();\n" ++
  "            return \"?\";\n" ++
  "        }\n" ++
  "    }\n" ++
  "\n" ++
  "    public static class InstantSerializer extends JsonSerializer<Instant> {\n" ++
  "        @Override\n" ++
  "        public void serialize(Instant value, JsonGenerator jgen, SerializerProvider provider) throws IOException, JsonProcessingException {\n" ++
  "            jgen.writeString(value.toString());\n" ++
  "        }\n" ++
  "    }\n" ++
  "\n" ++
  "    public static class InstantDeserializer extends JsonDeserializer<Instant> {\n" ++
  "        @Override\n" ++
  "        public Instant deserialize(JsonParser jp, DeserializationContext ctxt) throws IOException, JsonProcessingException {\n" ++
  "            String s = jp.getText();\n" ++
  "            return Instant.parse(s);\n" ++
  "        }\n" ++
  "    }\n" ++
  "\n" ++
  "    @Provider\n" ++
  "    public static class InstantConverterProvider implements ParamConverterProvider {\n" ++
  "        @Override\n" ++
  "        @SuppressWarnings(\"unchecked\")\n" ++
  "        public <T> ParamConverter<T> getConverter(Class<T> rawType, Type genericType, Annotation[] annotations) {\n" ++
  "            if (rawType.equals(Instant.class))\n" ++
  "                return (ParamConverter<T>) new InstantConverter();\n" ++
  "            return null;\n" ++
  "        }\n" ++
  "    }\n" ++
  "\n" ++
  "    public static class InstantConverter implements ParamConverter<Instant> {\n" ++
  "        @Override\n" ++
  "        public Instant fromString(String value) {\n" ++
  "            if (value != null) {\n" ++
  "                return Instant.parse(value);\n" ++
  "            }\n" ++
  "            return null;\n" ++
  "        }\n" ++
  "        @Override\n" ++
  "        public String toString(Instant value) {\n" ++
  "            return value.toString();\n" ++
  "        }\n" ++
  "    }\n" ++
  "\n" ++
  "    public static <T> String[] validate(T t) {\n" ++
  "        return new String[0]; //TO DO\n" ++
  "    }\n" ++
  "}\n"

/-- java/java_timestamp.go:57-131 `javaTimestamp`. -/
def javaTimestampText : String :=
  "\n" ++
  "import java.time.Instant;\n" ++
  "import com.fasterxml.jackson.core.JsonParser;\n" ++
  "import com.fasterxml.jackson.databind.JsonSerializer;\n" ++
  "import com.fasterxml.jackson.databind.annotation.JsonSerialize;\n" ++
  "import com.fasterxml.jackson.databind.DeserializationContext;\n" ++
  "import com.fasterxml.jackson.databind.JsonDeserializer;\n" ++
  "import com.fasterxml.jackson.databind.annotation.JsonDeserialize;\n" ++
  "import com.fasterxml.jackson.core.JsonGenerator;\n" ++
  "import com.fasterxml.jackson.databind.SerializerProvider;\n" ++
  "import com.fasterxml.jackson.core.JsonProcessingException;\n" ++
  "import java.io.IOException;\n" ++
  "\n" ++
  "@JsonSerialize(using = Timestamp.Serializer.class)\n" ++
  "@JsonDeserialize(using = Timestamp.Deserializer.class)\n" ++
  "public class Timestamp implements Comparable<Timestamp> {\n" ++
  "    private String repr;\n" ++
  "\n" ++
  "    public static Timestamp now() {\n" ++
  "        return new Timestamp(Instant.now());\n" ++
  "    }\n" ++
  "\n" ++
  "    public Timestamp(String repr) {\n" ++
  "        this.repr = repr;\n" ++
  "    }\n" ++
  "\n" ++
  "    public Timestamp(Instant instant) {\n" ++
  "        this.repr = instant.toString();\n" ++
  "    }\n" ++
  "    \n" ++
  "    public String toString() {\n" ++
  "        return repr;\n" ++
  "    }\n" ++
  "\n" ++
  "    public int compareTo(Timestamp another) {\n" ++
  "        if (another == null) {\n" ++
  "            return 1;\n" ++
  "        }\n" ++
  "        return this.asInstant().compareTo(another.asInstant());\n" ++
  "    }\n" ++
  "\n" ++
  "    public Instant asInstant() {\n" ++
  "        return Instant.parse(repr);\n" ++
  "    }\n" ++
  "\n" ++
  "    public static class Serializer extends JsonSerializer<Timestamp> {\n" ++
  "        @Override\n" ++
  "        public void serialize(Timestamp value, JsonGenerator jgen, SerializerProvider provider) throws IOException, JsonProcessingException {\n" ++
  "            jgen.writeString(value.repr);\n" ++
  "        }\n" ++
  "    }\n" ++
  "    public static class Deserializer extends JsonDeserializer<Timestamp> {\n" ++
  "        @Override\n" ++
  "        public Timestamp deserialize(JsonParser jp, DeserializationContext ctxt) throws IOException, JsonProcessingException {\n" ++
  "            String s = jp.getText();\n" ++
  "            return new Timestamp(s);\n" ++
  "        }\n" ++
  "    }\n" ++
  "\n" ++
  "    public static class InstantSerializer extends JsonSerializer<Instant> {\n" ++
  "        @Override\n" ++
  "        public void serialize(Instant value, JsonGenerator jgen, SerializerProvider provider) throws IOException, JsonProcessingException {\n" ++
  "            jgen.writeString(value.toString());\n" ++
  "        }\n" ++
  "    }\n" ++
  "    public static class InstantDeserializer extends JsonDeserializer<Instant> {\n" ++
  "        @Override\n" ++
  "        public Instant deserialize(JsonParser jp, DeserializationContext ctxt) throws IOException, JsonProcessingException {\n" ++
  "            String s = jp.getText();\n" ++
  "            return Instant.parse(s);\n" ++
  "        }\n" ++
  "    }\n" ++
  "\n" ++
  "}\n"

/-- java/java_model.go:77-126 `exceptionTemplate`. -/
def javaExceptionText : String :=
  "\n" ++
  "import com.fasterxml.jackson.databind.annotation.JsonSerialize;\n" ++
  "import com.fasterxml.jackson.databind.annotation.JsonDeserialize;\n" ++
  "import com.fasterxml.jackson.core.JsonParser;\n" ++
  "import com.fasterxml.jackson.databind.DeserializationContext;\n" ++
  "import com.fasterxml.jackson.databind.JsonSerializer;\n" ++
  "import com.fasterxml.jackson.databind.JsonDeserializer;\n" ++
  "import com.fasterxml.jackson.core.JsonGenerator;\n" ++
  "import com.fasterxml.jackson.databind.SerializerProvider;\n" ++
  "import com.fasterxml.jackson.core.JsonProcessingException;\n" ++
  "import java.io.IOException;\n" ++
  "\n" ++
  "@JsonSerialize(using = ServiceException.JSONSerializer.class)\n" ++
  "@JsonDeserialize(using = ServiceException.JSONDeserializer.class)\n" ++
  "public class ServiceException extends RuntimeException {\n" ++
  "    public Object entity;\n" ++
  "\n" ++
  "    public ServiceException() { super(); }\n" ++
  "    public ServiceException(String message) { super(message); }\n" ++
  "    public ServiceException(String message, Throwable cause) { super(message, cause); }\n" ++
  "    public ServiceException(Throwable cause) { super(cause); }\n" ++
  "\n" ++
  "    public ServiceException entity(Object entity) { this.entity = entity; return this; }\n" ++
  "\n" ++
  "    public static class ErrorObject {\n" ++
  "        public String error;\n" ++
  "        public ErrorObject(String error) { this.error = error; }\n" ++
  "    }\n" ++
  "\n" ++
  "    public static class JSONSerializer extends JsonSerializer<ServiceException> {\n" ++
  "        @Override\n" ++
  "        public void serialize(ServiceException value, JsonGenerator jgen, SerializerProvider provider) throws IOException, JsonProcessingException {\n" ++
  "            Object tmp = value.entity;\n" ++
  "            if (tmp == null) {\n" ++
  "                tmp = new ErrorObject(value.getMessage());\n" ++
  "            }\n" ++
  "            jgen.writeObject(tmp);\n" ++
  "        }\n" ++
  "    }\n" ++
  "\n" ++
  "    public static class JSONDeserializer extends JsonDeserializer<ServiceException> {\n" ++
  "        @Override\n" ++
  "        public ServiceException deserialize(JsonParser jp, DeserializationContext ctxt) throws IOException, JsonProcessingException {\n" ++
  "            ErrorObject tmp = jp.readValueAs(ErrorObject.class);\n" ++
  "            return new ServiceException(tmp.error);\n" ++
  "        }\n" ++
  "    }\n" ++
  "\n" ++
  "}\n"

/-- java/java_client.go:178-182 `clientConfig`. -/
def javaClientConfigText : String :=
  "\n" ++
  "public interface ClientConfig {\n" ++
  "    public String getTarget();\n" ++
  "}\n"

end Sadl
